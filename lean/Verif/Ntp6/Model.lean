/-!
# The mode 6 client of ntpd

Model of `src/ntp/sfptpd_ntpd_client_mode6.c`: the requests, the reassembly of the replies, the
parsing of the variables, and the functions that the NTP module calls.

Bytes are natural numbers.  A datagram is the list of the bytes that `recv` returned (at most 516,
lines 97, 170-194 and 672).  What the C library does with texts (`getaddrinfo`, `sscanf`) is a
parameter, and so are the arrival times.  Handling a packet takes no time.  Nothing is logged.
-/

namespace Verif.Ntp6

/-- Defects of memory use: the table of errors read outside (line 698), an array written or read
outside its bounds, a null pointer used, a value used that was never set. -/
inductive Fault
  | table | outside | null | unset
  deriving DecidableEq, Repr

/-! ## The header (lines 127-205, 256-264) -/

def u8 (b : List Nat) (i : Nat) : Nat := b.getD i 0

/-- `ntohs` of the 16 bits at `i`. -/
def u16 (b : List Nat) (i : Nat) : Nat := u8 b i * 256 + u8 b (i + 1)

/-- `PKT_VERSION` (line 204). -/
def version (b : List Nat) : Nat := u8 b 0 / 8 % 8

/-- `PKT_MODE` (line 203). -/
def mode (b : List Nat) : Nat := u8 b 0 % 8

/-- `CTL_ISRESPONSE` (line 261). -/
def isResponse (b : List Nat) : Bool := u8 b 1 / 128 % 2 = 1

/-- `CTL_ISERROR` (line 263). -/
def isError (b : List Nat) : Bool := u8 b 1 / 64 % 2 = 1

/-- `CTL_ISMORE` (line 262). -/
def isMore (b : List Nat) : Bool := u8 b 1 / 32 % 2 = 1

/-- `CTL_OP` (line 264). -/
def opcode (b : List Nat) : Nat := u8 b 1 % 32

def seqOf (b : List Nat) : Nat := u16 b 2
def statusOf (b : List Nat) : Nat := u16 b 4
def offsetOf (b : List Nat) : Nat := u16 b 8
def countOf (b : List Nat) : Nat := u16 b 10

/-- `mode6_validate_response_packet` (lines 545-591).  `false` is `EAGAIN`. -/
def validate (b : List Nat) (seq op : Nat) : Bool :=
  12 ≤ b.length && version b ≤ 4 && 1 ≤ version b && mode b = 6 && isResponse b && seqOf b = seq && opcode b = op

/-! ## Reassembly (lines 594-834) -/

/-- What `pselect` and `recv` return: a datagram or an error. -/
inductive Rx
  | packet (b : List Nat)
  | failed (errno : Nat)
  deriving DecidableEq, Repr

/-- The local variables of `mode6_response` and the buffer of the client (lines 601-615, 439). -/
structure Rs where
  frags : List (Nat × Nat)
  last : Bool
  buf : List Nat
  until_ : Nat
  deriving DecidableEq, Repr

/-- What a packet leads to. -/
inductive Verdict
  | again
  | fail (rc : Nat)
  | fault (f : Fault)
  | stored (s : Rs)
  | done (size : Nat) (s : Rs)
  deriving DecidableEq, Repr

/-- `ntp_cerr2errno` (lines 370-379): `EIO`, `EACCES`, `EBADMSG`, `ENOSYS`, `ENOENT`, `EINVAL`,
`EPERM` and one entry that is not initialised explicitly. -/
def errTable : List Nat := [5, 13, 74, 38, 2, 22, 1, 0]

/-- An error answer (lines 693-699). -/
def errAnswer (b : List Nat) : Verdict :=
  match errTable[statusOf b / 256]? with
  | none => .fault .table
  | some rc => .fail rc

/-- Find the place of a fragment and insert it, unless it overlaps (lines 762-796). -/
def place (fr : List (Nat × Nat)) (o c : Nat) : Option (List (Nat × Nat)) :=
  let pre := fr.takeWhile (fun f => f.1 < o)
  let post := fr.dropWhile (fun f => f.1 < o)
  if post.head?.any (fun f => f.1 = o) then none
  else if pre.getLast?.any (fun f => o < f.1 + f.2) then none
  else if post.head?.any (fun f => f.1 < o + c) then none
  else some (pre ++ (o, c) :: post)

/-- Each fragment begins where the one before ends (lines 823-826). -/
def contiguous : List (Nat × Nat) → Bool
  | a :: b :: l => a.1 + a.2 = b.1 && contiguous (b :: l)
  | _ => true

/-- The test for completeness (lines 820-832). -/
def complete (fr : List (Nat × Nat)) (last : Bool) : Option Nat :=
  if last && fr.head?.any (fun f => f.1 = 0) && contiguous fr then (fr.getLast?).map (fun f => f.1 + f.2) else none

/-- `memcpy` into a buffer. -/
def blit (buf : List Nat) (o : Nat) (d : List Nat) : List Nat := buf.take o ++ d ++ buf.drop (o + d.length)

/-- Store the fragment and look whether the reply is complete (lines 762-832).  The arrays have 33
entries (lines 605-606). -/
def store (s : Rs) (b : List Nat) (now timeout : Nat) : Verdict :=
  match place s.frags (offsetOf b) (countOf b) with
  | none => .again
  | some fr =>
    if 33 < fr.length then .fault .outside
    else if b.length < 12 + countOf b then .fault .unset
    else if s.buf.length < offsetOf b + countOf b then .fault .outside
    else
      let s' : Rs := ⟨fr, s.last || !isMore b, blit s.buf (offsetOf b) ((b.drop 12).take (countOf b)), now + timeout⟩
      match complete s'.frags s'.last with
      | some n => .done n s'
      | none => .stored s'

/-- The size of a packet with `count` bytes, padded to 32 bits (line 720). -/
def padded (count : Nat) : Nat := (12 + count + 3) / 4 * 4

/-- One pass of the loop for a datagram (lines 681-832). -/
def onPacket (seq op timeout now : Nat) (s : Rs) (b : List Nat) : Verdict :=
  if !validate b seq op then .again
  else if isError b then errAnswer b
  else if b.length % 4 ≠ 0 then .again
  else if b.length < padded (countOf b) then .fail 71
  else if b.length < 12 + countOf b then .again
  else if countOf b = 0 && isMore b then .again
  else if 4096 < offsetOf b + countOf b then .fail 28
  else if s.last && !isMore b then .again
  else if 31 < s.frags.length then .fail 27
  else store s b now timeout

/-- The result of a query: the errno, or a reply of `size` bytes at the start of the buffer.
`refused` is a result 0 for which the pointer to the reply was not set (lines 693-699). -/
inductive Reply
  | ok (size : Nat)
  | refused
  | rc (errno : Nat)
  | fault (f : Fault)
  deriving DecidableEq, Repr

/-- The result, the buffer and the time at which it is known. -/
structure Ended where
  reply : Reply
  buf : List Nat
  time : Nat
  deriving DecidableEq, Repr

/-- The loop of `mode6_response` (lines 646-833).  An event is what the socket gives and the time
at which it is read; nothing more comes when the list is empty. -/
def loop (seq op timeout : Nat) (s : Rs) : List (Nat × Rx) → Ended
  | [] => ⟨.rc 110, s.buf, s.until_⟩
  | (t, e) :: es =>
    if s.until_ < t then ⟨.rc 110, s.buf, s.until_⟩
    else match e with
      | .failed n => ⟨.rc n, s.buf, t⟩
      | .packet b =>
        match onPacket seq op timeout t s b with
        | .again => loop seq op timeout s es
        | .fail 0 => ⟨.refused, s.buf, t⟩
        | .fail n => ⟨.rc n, s.buf, t⟩
        | .fault f => ⟨.fault f, s.buf, t⟩
        | .stored s' => loop seq op timeout s' es
        | .done n s' => ⟨.ok n, s'.buf, t⟩

/-- `mode6_response` (lines 594-834) begun at `start`. -/
def response (seq op timeout start : Nat) (buf : List Nat) (es : List (Nat × Rx)) : Ended :=
  loop seq op timeout ⟨[], false, buf, start + timeout⟩ es

/-! ## Requests (lines 448-542) -/

/-- Zeros up to a multiple of `k` (lines 512-515 and 528-531). -/
def padTo (k : Nat) (l : List Nat) : List Nat := l ++ List.replicate ((k - l.length % k) % k) 0

/-- The header of a request (lines 490-498). -/
def header (seq op assoc count : Nat) : List Nat :=
  [38, op % 32, seq / 256 % 256, seq % 256, 0, 0, assoc / 256 % 256, assoc % 256, 0, 0, count / 256 % 256, count % 256]

/-- `mode6_request` (lines 464-542): the datagram, or an errno.  `digest` is `MD5authencrypt` with
the key of the client, which yields the bytes that are added. -/
def request (digest : List Nat → List Nat) (seq op assoc : Nat) (auth : Bool) (data : List Nat) : Except Nat (List Nat) :=
  if 468 < data.length then .error 7
  else
    let p := padTo 4 (header seq op assoc data.length ++ data)
    if !auth then .ok p
    else
      let p := padTo 8 p
      if (digest p).length ≠ 20 then .error 5 else .ok (p ++ digest p)

/-- The client (lines 211 and 432-442): the number of the last query, the buffer, the cache of
associations as bytes, the timeout and whether it has a key. -/
structure Client where
  seq : Nat
  buf : List Nat
  cache : List Nat
  timeout : Nat
  key : Bool
  digest : List Nat → List Nat

/-- What happens outside during a query: the errno of `send` (0 for success), the time, what
arrives. -/
structure Net where
  sent : Nat := 0
  start : Nat := 0
  events : List (Nat × Rx) := []

/-- The result of `mode6_query`: unsent requests leave the size and the pointer as they were. -/
inductive Answer
  | unsent (errno : Nat)
  | replied (r : Reply)
  deriving DecidableEq, Repr

/-- `mode6_query` (lines 836-875): the datagram sent if any, the answer and the client. -/
def query (c : Client) (n : Net) (op assoc : Nat) (auth : Bool) (data : List Nat) : Option (List Nat) × Answer × Client :=
  let c := { c with seq := (c.seq + 1) % 65536 }
  match request c.digest c.seq op assoc auth data with
  | .error rc => (none, .unsent rc, c)
  | .ok p =>
    if n.sent ≠ 0 then (some p, .unsent n.sent, c)
    else
      let r := response c.seq op c.timeout n.start c.buf n.events
      (some p, .replied r.reply, { c with buf := r.buf })

/-! ## Variables (lines 877-1045) -/

/-- `make_query_data` for names without values (lines 892-932).  The first name is written without
a comma; it stops at the first name that does not fit. -/
def queryData (limit : Nat) : List (List Nat) → List Nat → List Nat
  | [], out => out
  | v :: vs, out =>
    if limit < out.length + v.length + (if out = [] then 0 else 1) then out
    else queryData limit vs (out ++ (if out = [] then [] else [44]) ++ v)

/-- `ISSPACE` (line 242). -/
def isSpace (c : Nat) : Bool := c = 32 || c = 9

/-- Trailing white space removed (lines 981-982 and 1032-1033). -/
def trimEnd (l : List Nat) : List Nat := (l.reverse.dropWhile isSpace).reverse

/-- The end of a value (lines 1024-1044): `body` is its text and `rest` what follows. -/
def takeValue (name body rest : List Nat) : Option (List Nat × Option (List Nat) × List Nat) :=
  if 2048 ≤ body.length then none
  else match rest with
    | [] => some (name, some (trimEnd body), [])
    | c :: r =>
      if c = 44 then some (name, some (trimEnd body), r)
      else if c = 13 then some (name, some (trimEnd body), c :: r)
      else none

/-- The value after the equals sign (lines 1007-1023).  `beyond` is the byte in memory that
follows the data. -/
def value (beyond : Nat) (name d : List Nat) : Option (List Nat × Option (List Nat) × List Nat) :=
  match d.dropWhile isSpace with
  | [] => if beyond = 34 then none else takeValue name [] []
  | c :: r =>
    if c = 34 then
      takeValue name (r.takeWhile (fun x => x ≠ 34)) ((r.dropWhile (fun x => x ≠ 34)).drop 1)
    else
      takeValue name ((c :: r).takeWhile (fun x => x ≠ 44 && x ≠ 13)) ((c :: r).dropWhile (fun x => x ≠ 44 && x ≠ 13))

/-- `next_var` (lines 947-1045): name, value if any, and what remains. -/
def nextVar (beyond : Nat) (d : List Nat) : Option (List Nat × Option (List Nat) × List Nat) :=
  let d := d.dropWhile (fun c => c = 44 || isSpace c)
  if d = [] then none
  else
    let raw := d.takeWhile (fun c => c ≠ 44 && c ≠ 61 && c ≠ 13 && c ≠ 10 && c ≠ 0)
    let name := trimEnd raw
    if 256 ≤ name.length then none
    else match d.dropWhile (fun c => c ≠ 44 && c ≠ 61 && c ≠ 13 && c ≠ 10 && c ≠ 0) with
      | [] => some (name, none, [])
      | c :: r => if c = 44 || c = 13 || c = 10 then some (name, none, r) else value beyond name r

/-- The calls of `next_var` until it returns 0 (lines 1274 and 1399), at most `fuel` of them. -/
def vars (beyond : Nat) : Nat → List Nat → List (List Nat × Option (List Nat))
  | 0, _ => []
  | fuel + 1, d =>
    match nextVar beyond d with
    | none => []
    | some (n, v, r) => (n, v) :: vars beyond fuel r

/-! ## Addresses (lines 1053-1121) -/

/-- A text up to its end. -/
def cstr (l : List Nat) : List Nat := l.takeWhile (fun c => c ≠ 0)

/-- The text that is given to `getaddrinfo` (lines 1071-1105).  `mem` is the whole array of 2048
bytes that holds the value. -/
def addrText (mem : List Nat) : Except Fault (List Nat) :=
  match mem with
  | 91 :: r => if 93 ∈ r then .ok (cstr (r.takeWhile (fun c => c ≠ 93))) else .error .outside
  | _ => if (cstr mem).count 58 = 1 then .ok ((cstr mem).takeWhile (fun c => c ≠ 58)) else .ok (cstr mem)

/-- The C library: addresses, integers and numbers in texts, and what earlier values left in the
array that holds a value. -/
structure Lib where
  resolve : List Nat → Except Nat Nat
  integer : List Nat → Option Nat
  number : List Nat → Option Int
  stale : List Nat → List Nat

/-- The array that holds a value: 2048 bytes (lines 960 and 1028-1034). -/
def valueMem (lib : Lib) (v : List Nat) : List Nat := v ++ 0 :: (lib.stale v).take (2047 - v.length)

/-- `parse_addr_string` (lines 1053-1121): the errno and the address (`none` is `AF_UNSPEC`). -/
def parseAddr (lib : Lib) : Option (List Nat) → Except Fault (Nat × Option Nat)
  | none => .error .null
  | some v =>
    match addrText (valueMem lib v) with
    | .error f => .error f
    | .ok t =>
      match lib.resolve t with
      | .ok a => .ok (0, some a)
      | .error e => .ok (e, none)

/-- `parse_u32_string` (lines 1124-1129). -/
def parseInt (lib : Lib) : Option (List Nat) → Except Fault Nat
  | none => .error .null
  | some v => match lib.integer (cstr v) with
    | none => .error .unset
    | some n => .ok n

/-- `parse_float_string` (lines 1132-1137). -/
def parseNum (lib : Lib) : Option (List Nat) → Except Fault Int
  | none => .error .null
  | some v => match lib.number (cstr v) with
    | none => .error .unset
    | some x => .ok x

/-! ## System information (lines 1229-1315) -/

def strPeeradr : List Nat := [112, 101, 101, 114, 97, 100, 114]

/-- The byte that follows a reply in memory: the cache follows the buffer (lines 439-440). -/
def beyondOf (c : Client) (size : Nat) : Nat := (c.buf ++ c.cache).getD size 0

/-- All variables of a reply. -/
def replyVars (c : Client) (size : Nat) : List (List Nat × Option (List Nat)) :=
  vars (beyondOf c size) (size + 1) (c.buf.take size)

/-- The overall handling of errors (lines 1298-1312). -/
def sysCode (rc : Nat) : Nat := if rc = 0 || rc = 111 then rc else 2

/-- The first `peeradr` among the variables (lines 1274-1281). -/
def findPeer (l : List (List Nat × Option (List Nat))) : Option (Option (List Nat)) :=
  (l.find? (fun v => v.1 = strPeeradr)).map (·.2)

/-- `mode6_get_sys_info` (lines 1229-1315): the errno, the address of the peer and the client. -/
def getSys (lib : Lib) (c : Client) (n : Net) (addr : Option Nat) : Except Fault (Nat × Option Nat × Client) :=
  match query c n 2 0 false strPeeradr with
  | (_, .unsent e, c) => .ok (sysCode e, addr, c)
  | (_, .replied (.rc e), c) => .ok (sysCode e, addr, c)
  | (_, .replied (.fault f), _) => .error f
  | (_, .replied .refused, c) => .ok (sysCode 2, addr, c)
  | (_, .replied (.ok size), c) =>
    match findPeer (replyVars c size) with
    | none => .ok (sysCode 2, addr, c)
    | some v =>
      match parseAddr lib v with
      | .error f => .error f
      | .ok (rc, a) => .ok (sysCode rc, a, c)

/-! ## Peers (lines 1317-1452) -/

/-- An entry of the table of peers (`sfptpd_ntpd_client.h` lines 75-91). -/
structure Peer where
  remote : Option Nat := none
  local_ : Option Nat := none
  stratum : Nat := 0
  candidate : Bool := false
  offset : Int := 0
  disp : Int := 0
  sent : Nat := 0
  received : Nat := 0
  selected : Bool := false
  shortlist : Bool := false
  self : Bool := false
  deriving DecidableEq, Repr

/-- The names, as in lines 387-398. -/
def strSrcadr : List Nat := [115, 114, 99, 97, 100, 114]
def strDstadr : List Nat := [100, 115, 116, 97, 100, 114]
def strStratum : List Nat := [115, 116, 114, 97, 116, 117, 109]
def strOffset : List Nat := [111, 102, 102, 115, 101, 116]
def strHmode : List Nat := [104, 109, 111, 100, 101]
def strSent : List Nat := [115, 101, 110, 116]
def strReceived : List Nat := [114, 101, 99, 101, 105, 118, 101, 100]
def strRootdisp : List Nat := [114, 111, 111, 116, 100, 105, 115, 112]
def strRefid : List Nat := [114, 101, 102, 105, 100]

def peerNames : List (List Nat) :=
  [strSrcadr, strDstadr, strStratum, strOffset, strHmode, strSent, strReceived, strRootdisp, strRefid]

/-- One variable of a peer (lines 1401-1440).  Times are given in milliseconds; `lib.number` yields
nanoseconds.  The smoothed values (lines 1395-1396) are left out. -/
def setVar (lib : Lib) (p : Peer) (v : List Nat × Option (List Nat)) : Except Fault Peer :=
  if v.1 = strSrcadr then (parseAddr lib v.2).map (fun r => { p with remote := r.2 })
  else if v.1 = strDstadr then (parseAddr lib v.2).map (fun r => { p with local_ := r.2 })
  else if v.1 = strStratum then (parseInt lib v.2).map (fun n => { p with stratum := n })
  else if v.1 = strHmode then (parseInt lib v.2).map (fun n => { p with candidate := n = 3 })
  else if v.1 = strOffset then (parseNum lib v.2).map (fun x => { p with offset := -x })
  else if v.1 = strRootdisp then (parseNum lib v.2).map (fun x => { p with disp := x })
  else if v.1 = strSent then (parseInt lib v.2).map (fun n => { p with sent := n })
  else if v.1 = strReceived then (parseInt lib v.2).map (fun n => { p with received := n })
  else if v.1 = strRefid then
    match v.2 with
    | none => .error .null
    | some _ => .ok { p with self := false }
  else .ok p

def setVars (lib : Lib) (p : Peer) : List (List Nat × Option (List Nat)) → Except Fault Peer
  | [] => .ok p
  | v :: vs => match setVar lib p v with
    | .error f => .error f
    | .ok p => setVars lib p vs

/-- The flags in the status of an association (lines 1442-1447). -/
def setStatus (p : Peer) (status : Nat) : Peer :=
  { p with selected := status / 256 % 256 % 8 = 6, shortlist := status / 256 % 256 % 8 = 5 }

/-- Associations that are configured or reachable (lines 1376-1378). -/
def kept (status : Nat) : Bool := status / 256 % 256 / 128 % 2 = 1 || status / 256 % 256 / 16 % 2 = 1

/-- The list of associations in a reply (lines 403-406, 1361-1372). -/
def associations : List Nat → List (Nat × Nat)
  | a :: b :: c :: d :: l => (a * 256 + b, c * 256 + d) :: associations l
  | _ => []

/-- The result of the query for one peer: errno, variables.  When the request was not sent the
variables are those that the last reply left unparsed, which are none; for the first peer they are
taken through a pointer that was never set. -/
def peerAnswer (c : Client) (first : Bool) : Answer → Except Fault (Nat × List (List Nat × Option (List Nat)))
  | .unsent e => if first then .error .unset else .ok (e, [])
  | .replied (.rc e) => .ok (e, [])
  | .replied .refused => .ok (0, [])
  | .replied (.fault f) => .error f
  | .replied (.ok size) => .ok (0, replyVars c size)

/-- The table, the number of peers and the client during `mode6_get_peer_info`. -/
structure Table where
  peers : List Peer
  num : Nat
  client : Client

/-- The loop over the associations (lines 1369-1449): `i` is the index, `rc` the last result. -/
def peerLoop (lib : Lib) (t : Table) (rc i : Nat) (first : Bool) : List (Nat × Nat) → List Net → Except Fault (Nat × Table)
  | [], _ => .ok (rc, t)
  | (id, status) :: as, ns =>
    if !kept status then peerLoop lib t rc (i + 1) first as ns
    else
      let n := ns.headD {}
      let r := query t.client n 2 id false (queryData 468 peerNames [])
      match peerAnswer r.2.2 first r.2.1 with
      | .error f => .error f
      | .ok (rc, vs) =>
        match t.peers[i]? with
        | none => .error .outside
        | some p =>
          match setVars lib p vs with
          | .error f => .error f
          | .ok p =>
            peerLoop lib { peers := t.peers.set i (setStatus p status), num := t.num + 1, client := r.2.2 } rc (i + 1) false as ns.tail

/-- `mode6_get_peer_info` (lines 1317-1452).  The first query asks for the associations. -/
def getPeers (lib : Lib) (t : Table) (n : Net) (ns : List Net) : Except Fault (Nat × Table) :=
  match query t.client n 1 0 false [] with
  | (_, .unsent _, c) => .ok (0, { t with client := c })
  | (_, .replied (.rc _), c) => .ok (0, { t with client := c })
  | (_, .replied (.fault f), _) => .error f
  | (_, .replied .refused, c) => .ok (0, { t with client := c })
  | (_, .replied (.ok size), c) =>
    if size = 0 || size % 4 ≠ 0 then .ok (0, { t with client := c })
    else if 4096 < size then .ok (12, { t with client := c })
    else
      peerLoop lib { t with num := 0, client := { c with cache := blit c.cache 0 (c.buf.take size) } } 0 0 true
        (associations (c.buf.take size)) ns

/-! ## Clock control (lines 1454-1507) -/

def strEnable : List Nat := [101, 110, 97, 98, 108, 101, 32, 110, 116, 112, 32, 107, 101, 114, 110, 101, 108]
def strDisable : List Nat := [100, 105, 115, 97, 98, 108, 101, 32, 110, 116, 112, 32, 107, 101, 114, 110, 101, 108]
def strSucceeded : List Nat := [67, 111, 110, 102, 105, 103, 32, 83, 117, 99, 99, 101, 101, 100, 101, 100, 13, 10]

/-- `mode6_clock_control` (lines 1454-1507): datagram sent, errno and client.  `strncmp` looks at
the buffer, whatever the size of the reply. -/
def clockControl (c : Client) (n : Net) (on : Bool) : Except Fault (Option (List Nat) × Nat × Client) :=
  if !c.key then .ok (none, 13, c)
  else
    match query c n 8 0 true (if on then strEnable else strDisable) with
    | (p, .unsent e, c) => .ok (p, e, c)
    | (p, .replied (.rc e), c) => .ok (p, e, c)
    | (_, .replied (.fault f), _) => .error f
    | (_, .replied .refused, _) => .error .unset
    | (p, .replied (.ok _), c) => .ok (p, if c.buf.take 18 = strSucceeded then 0 else 13, c)

end Verif.Ntp6
