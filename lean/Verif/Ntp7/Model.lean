/-!
# The mode 7 client of ntpd

Model of `src/ntp/sfptpd_ntpd_client_mode7.c`: the requests, the collection of the replies, and the
functions that the NTP module calls.

Bytes are natural numbers.  A datagram is the list of the bytes that `recv` returned (at most 508,
lines 303-323 and 1060).  What arrives and when is a parameter, and so are the clock, the digest
and the result of `getnameinfo`.  Handling a packet takes no time.  Messages are left out, except
that line 1085 reads the table of errors.  An errno that a system call leaves is not 0.
-/

namespace Verif.Ntp7

/-- Defects: the table of errors read outside its bounds (line 1085), an array used outside its
bounds, bytes read that were never received, overflow of a signed difference (line 829). -/
inductive Fault
  | table | outside | unset | overflow
  deriving DecidableEq, Repr

/-! ## Fields -/

def u8 (b : List Nat) (i : Nat) : Nat := b.getD i 0

/-- `ntohs` of the 16 bits at `i`. -/
def u16 (b : List Nat) (i : Nat) : Nat := u8 b i * 256 + u8 b (i + 1)

/-- `ntohl` of the 32 bits at `i`. -/
def u32 (b : List Nat) (i : Nat) : Nat := u16 b i * 65536 + u16 b (i + 2)

/-- `memcpy` into a buffer. -/
def blit (buf : List Nat) (o : Nat) (d : List Nat) : List Nat := buf.take o ++ d ++ buf.drop (o + d.length)

/-- `INFO_VERSION` (line 344). -/
def version (b : List Nat) : Nat := u8 b 0 / 8 % 8

/-- `INFO_MODE` (line 345). -/
def mode (b : List Nat) : Nat := u8 b 0 % 8

/-- `ISRESPONSE` (line 342). -/
def isResponse (b : List Nat) : Bool := u8 b 0 / 128 % 2 = 1

/-- `ISMORE` (line 343). -/
def isMore (b : List Nat) : Bool := u8 b 0 / 64 % 2 = 1

/-- `INFO_IS_AUTH` (line 353). -/
def isAuth (b : List Nat) : Bool := u8 b 1 / 128 % 2 = 1

/-- `INFO_SEQ` (line 354). -/
def seqOf (b : List Nat) : Nat := u8 b 1 % 128

/-- `INFO_ERR` (line 357). -/
def errOf (b : List Nat) : Nat := u16 b 4 / 4096 % 16

/-- `INFO_NITEMS` (line 358). -/
def itemsOf (b : List Nat) : Nat := u16 b 4 % 4096

/-- `INFO_MBZ` (line 362). -/
def mbzOf (b : List Nat) : Nat := u16 b 6 / 4096 % 16

/-- `INFO_ITEMSIZE` (line 363). -/
def sizeOf_ (b : List Nat) : Nat := u16 b 6 % 4096

/-! ## Replies (lines 938-1165) -/

/-- `mode7_check_response_part1` (lines 938-989).  `false` is `EAGAIN`. -/
def check (b : List Nat) (code : Nat) : Bool :=
  8 ≤ b.length && version b ≤ 4 && 1 ≤ version b && mode b = 7 && !isAuth b && isResponse b && mbzOf b = 0 &&
    u8 b 2 = 3 && u8 b 3 = code

/-- What `pselect` and `recv` return: a datagram or an error. -/
inductive Rx
  | packet (b : List Nat)
  | failed (errno : Nat)
  deriving DecidableEq, Repr

/-- The local variables of `mode7_response` (lines 997-1006) and the buffer of the client (line
721): packets counted, number of the last one, place to write, items counted. -/
structure Rs where
  count : Nat
  last : Nat
  pos : Nat
  items : Nat
  buf : List Nat
  deriving DecidableEq, Repr

/-- What a packet leads to. -/
inductive Verdict
  | again
  | fail (rc : Nat)
  | fault (f : Fault)
  | stored (s : Rs)
  deriving DecidableEq, Repr

/-- `mode7_error_to_errno` (lines 754-764): 0, `EMSGSIZE`, `ENOSYS`, `EBADMSG`, `ENODATA`, `EIO`,
`EIO`, `EACCES`. -/
def errTable : List Nat := [0, 90, 38, 74, 61, 5, 5, 13]

/-- An error answer (lines 1081-1090).  The table is read at line 1085 before line 1086 tests the
bound; the arguments of the trace macro are always evaluated (`sfptpd_logging.h` line 46). -/
def errAnswer (b : List Nat) : Verdict :=
  match errTable[errOf b]? with
  | none => .fault .table
  | some rc => .fail rc

/-- The copy of the items (lines 1144-1152): `r` is where to read and `pos` where to write. -/
def copyItems (b : List Nat) (size pad : Nat) : Nat → Nat → Nat → List Nat → Except Fault (List Nat)
  | 0, _, _, buf => .ok buf
  | n + 1, r, pos, buf =>
    if b.length < r + size then .error .unset
    else if buf.length < pos + (size + pad) then .error .outside
    else copyItems b size pad n (r + size) (pos + (size + pad))
      (blit buf pos ((b.drop r).take size ++ List.replicate pad 0))

/-- Take the items of a packet (lines 1125-1158). -/
def take (req : Nat) (s : Rs) (b : List Nat) : Verdict :=
  let pad := if sizeOf_ b < req then req - sizeOf_ b else 0
  if s.buf.length < s.pos + itemsOf b * (sizeOf_ b + pad) then .fail 28
  else match copyItems b (sizeOf_ b) pad (itemsOf b) 8 s.pos s.buf with
    | .error f => .fault f
    | .ok buf =>
      .stored { count := s.count + 1, last := if isMore b then s.last else seqOf b,
                pos := s.pos + itemsOf b * (sizeOf_ b + pad), items := s.items + itemsOf b, buf := buf }

/-- One pass of the loop for a datagram (lines 1072-1158).  No element of `have_seq` is ever set,
so the test of line 1114 never holds. -/
def onPacket (code req : Nat) (s : Rs) (b : List Nat) : Verdict :=
  if !check b code then .again
  else if errOf b ≠ 0 then errAnswer b
  else if b.length - 8 < itemsOf b * sizeOf_ b then .again
  else if s.count ≠ 0 && req < sizeOf_ b then .again
  else if !isMore b && s.last ≤ 127 then .again
  else take req s b

/-- The result of a query: a number of items at the start of the buffer, or the errno. -/
inductive Reply
  | ok (items : Nat)
  | rc (errno : Nat)
  | fault (f : Fault)
  deriving DecidableEq, Repr

/-- The result, the buffer and the time at which it is known. -/
structure Ended where
  reply : Reply
  buf : List Nat
  time : Nat
  deriving DecidableEq, Repr

/-- The loop of `mode7_response` (lines 1037-1159).  An event is what the socket gives and the time
at which it is read; nothing more comes when the list is empty. -/
def loop (code req until_ : Nat) (s : Rs) : List (Nat × Rx) → Ended
  | [] => ⟨.rc 110, s.buf, until_⟩
  | (t, e) :: es =>
    if until_ < t then ⟨.rc 110, s.buf, until_⟩
    else match e with
      | .failed n => ⟨.rc n, s.buf, t⟩
      | .packet b =>
        match onPacket code req s b with
        | .again => loop code req until_ s es
        | .fail n => ⟨.rc n, s.buf, t⟩
        | .fault f => ⟨.fault f, s.buf, t⟩
        | .stored s' =>
          if s'.count ≤ s'.last then loop code req until_ s' es else ⟨.ok s'.items, s'.buf, t⟩

/-- `mode7_response` (lines 992-1165) begun at `start`.  `last` begins as `INT_MAX`. -/
def response (code req timeout start : Nat) (buf : List Nat) (es : List (Nat × Rx)) : Ended :=
  loop code req (start + timeout) ⟨0, 2147483647, 0, 0, buf⟩ es

/-! ## Requests (lines 838-935) -/

/-- `mode7_get_systime` (lines 838-859) for a normalised time: seconds since 1900 and fraction.
The fraction is the exact one rounded down; it is never nearer than 1/1953125 below an integer, so
that the rounding of line 846 does not matter. -/
def systime (sec : Int) (nsec : Nat) : Nat × Nat :=
  (((sec + 2208988800) % 4294967296).toNat, nsec * 4294967296 / 1000000000)

/-- `L_ADD` (lines 121-138): addition in parts of 16 bits. -/
def lAdd (r a : Nat × Nat) : Nat × Nat :=
  let lo := r.2 % 65536 + a.2 % 65536
  let hi := r.2 / 65536 % 65536 + a.2 / 65536 % 65536
  let hi := if lo / 65536 % 2 = 1 then hi + 1 else hi
  ((r.1 + a.1 + if hi / 65536 % 2 = 1 then 1 else 0) % 4294967296, hi % 65536 * 65536 + lo % 65536)

def be16 (n : Nat) : List Nat := [n / 256 % 256, n % 256]
def be32 (n : Nat) : List Nat := be16 (n / 65536) ++ be16 n

/-- The header of a request (lines 894-911): version 2, mode 7, implementation 3. -/
def header (auth : Bool) (code num size : Nat) : List Nat :=
  [23, if auth then 128 else 0, 3, code % 256] ++ be16 (num % 4096) ++ be16 size

/-- The outcome of building a request. -/
inductive Built
  | packet (b : List Nat)
  | err (rc : Nat)
  | fault (f : Fault)
  deriving DecidableEq, Repr

/-- The packet before it is cut to size: the structure has 208 bytes (lines 283-294). -/
def blank (auth : Bool) (code num size : Nat) (data : List Nat) : List Nat :=
  let h := header auth code (if data = [] then 0 else num) size
  h ++ data ++ List.replicate (200 - data.length) 0

/-- `mode7_request` (lines 879-935) without `mode7_send`.  `data` holds all the items.  `digest` is
`MD5authencrypt` with the key of the client, which yields the bytes that are added. -/
def request (digest : List Nat → List Nat) (now : Int × Nat) (len code : Nat) (auth : Bool) (num size : Nat)
    (data : List Nat) : Built :=
  if 200 < data.length then .fault .outside
  else
    let p := blank auth code num size data
    if !auth then .packet (p.take len)
    else
      let ts := lAdd (systime now.1 now.2) (0, 85899346)
      let p := (blit p (len - 8) (be32 ts.1 ++ be32 ts.2)).take len
      if (digest p).length ≠ 20 then .err 5 else .packet (p ++ digest p)

/-! ## Queries (lines 703-723, 1168-1209) -/

/-- The client (lines 714-723), and all the datagrams that it passed to `send`. -/
structure Client where
  key : Int := 0
  legacy : Nat := 0
  size : Nat := 188
  buf : List Nat
  timeout : Nat := 300000000
  digest : List Nat → List Nat
  out : List (List Nat) := []

/-- What happens outside during one attempt: what is waiting at the socket, the clock, the errno of
`send` (0 for success), the time when it was sent, what arrives from then on. -/
structure Net where
  pending : List Rx := []
  clock : Int × Nat := (0, 0)
  sent : Nat := 0
  start : Nat := 0
  events : List (Nat × Rx) := []

/-- The loop that empties the socket (line 1188): it ends at an error or an empty datagram.  What
remains is returned. -/
def drain : List Rx → List Rx
  | [] => []
  | .failed _ :: l => l
  | .packet b :: l => if b = [] then l else drain l

/-- What can be received after the request was sent. -/
def Net.arrivals (n : Net) : List (Nat × Rx) := (drain n.pending).map (fun e => (n.start, e)) ++ n.events

/-- `ntp_legacy_pkt_sizes` (lines 770-775). -/
def legacySize : Nat → Nat
  | 0 => 188
  | 1 => 160
  | _ => 48

/-- A question: code, authentication, number and size of items, items, size of the items of the
answer. -/
structure Ask where
  code : Nat
  auth : Bool := false
  num : Nat := 0
  size : Nat := 0
  data : List Nat := []
  req : Nat := 0
  deriving DecidableEq, Repr

/-- One attempt (lines 1188-1198). -/
def attempt (c : Client) (n : Net) (q : Ask) : Reply × Client :=
  match request c.digest n.clock c.size q.code q.auth q.num q.size q.data with
  | .fault f => (.fault f, c)
  | .err rc => (.rc rc, c)
  | .packet p =>
    let c := { c with out := c.out ++ [p] }
    if n.sent ≠ 0 then (.rc n.sent, c)
    else
      let r := response q.code q.req c.timeout n.start c.buf n.arrivals
      (r.reply, { c with buf := r.buf })

/-- `mode7_query` (lines 1168-1209), at most `fuel` retries.  A request that was not built or not
sent is not repeated (lines 1191-1194). -/
def retry : Nat → Client → List Net → Ask → Reply × Client
  | 0, c, ns, q => attempt c (ns.headD {}) q
  | fuel + 1, c, ns, q =>
    let n := ns.headD {}
    match request c.digest n.clock c.size q.code q.auth q.num q.size q.data with
    | .packet _ =>
      let r := attempt c n q
      if n.sent = 0 && r.1 = .rc 90 && r.2.legacy < 2 then
        retry fuel { r.2 with legacy := r.2.legacy + 1, size := legacySize (r.2.legacy + 1) } ns.tail q
      else r
    | _ => attempt c n q

/-- `mode7_query` (lines 1168-1209): there are at most two retries, as `legacy_mode` stays below 2
before each (line 1202). -/
def query (c : Client) (ns : List Net) (q : Ask) : Reply × Client := retry (2 - c.legacy) c ns q

/-! ## Addresses (lines 782-831) -/

/-- A host address, in the order of the network. -/
inductive Addr
  | v4 (b : List Nat)
  | v6 (b : List Nat)
  deriving DecidableEq, Repr

/-- A flag of 32 bits is set. -/
def flag32 (b : List Nat) (i : Nat) : Bool := u32 b i ≠ 0

def part (b : List Nat) (o n : Nat) : List Nat := (b.drop o).take n

/-- `write_address` (lines 782-799): `f` is where the flag is, `a4` and `a6` the addresses. -/
def address (b : List Nat) (f a4 a6 : Nat) : Addr :=
  if flag32 b f then .v6 (part b a6 16) else .v4 (part b a4 4)

/-- The 32 bits of an IPv4 address as `int32_t` on a little-endian machine. -/
def asInt (b : List Nat) : Int :=
  let n := u8 b 0 + 256 * u8 b 1 + 65536 * u8 b 2 + 16777216 * u8 b 3
  if n < 2147483648 then n else (n : Int) - 4294967296

/-- `cmp_host_address` (lines 818-831): whether it returns 0. -/
def sameHost (a : Addr) (b : List Nat) (f a4 a6 : Nat) : Except Fault Bool :=
  if flag32 b f then
    match a with
    | .v6 x => .ok (part b a6 16 = x)
    | .v4 _ => .ok false
  else
    match a with
    | .v6 _ => .ok false
    | .v4 x =>
      let d := asInt x - asInt (part b a4 4)
      if d < -2147483648 ∨ 2147483647 < d then .error .overflow else .ok (d = 0)

/-- `read_address` (lines 802-815) and the rest of `ntp_info_peer_list` (lines 463-471 and
1422-1426): port 123, the flag in the order of the host. -/
def listData : Addr → List Nat
  | .v4 x => x ++ [0, 123, 0, 0] ++ [0, 0, 0, 0] ++ [0, 0, 0, 0] ++ List.replicate 16 0
  | .v6 x => [0, 0, 0, 0] ++ [0, 123, 0, 0] ++ [1, 0, 0, 0] ++ [0, 0, 0, 0] ++ x

/-! ## System information (lines 674-694, 1302-1342) -/

/-- `sfptpd_ntpclient_sys_info` (`sfptpd_ntpd_client.h` lines 52-56). -/
structure Sys where
  peer : Addr := .v4 [0, 0, 0, 0]
  control : Bool := false
  deriving DecidableEq, Repr

/-- `mode7_get_sys_info` (lines 1302-1342).  `name` is the result of `getnameinfo`.  The structure
has 80 bytes: `peer` at 0, `flags` at 32, `v6_flag` at 56, `peer6` at 64. -/
def getSys (name : Addr → Int) (c : Client) (ns : List Net) (s : Sys) : Except Fault (Int × Sys × Client) :=
  match query c ns { code := 4, req := 80 } with
  | (.fault f, _) => .error f
  | (.rc e, c) => .ok (e, s, c)
  | (.ok _, c) =>
    let a := address c.buf 56 0 64
    .ok (name a, { peer := a, control := u8 c.buf 32 / 4 % 2 = 1 || u8 c.buf 32 / 8 % 2 = 1 }, c)

/-- `mode7_test_connection` (lines 1538-1543). -/
def testConnection (name : Addr → Int) (c : Client) (ns : List Net) : Except Fault (Int × Client) :=
  (getSys name c ns {}).map (fun r => (r.1, r.2.2))

/-! ## Peers (lines 490-507, 551-600, 623-652, 1345-1503) -/

/-- An entry of the table of peers (`sfptpd_ntpd_client.h` lines 75-91).  The smoothed values
(lines 1410-1411) are left out. -/
structure Peer where
  remote : Addr := .v4 [0, 0, 0, 0]
  local_ : Addr := .v4 [0, 0, 0, 0]
  sent : Nat := 0
  received : Nat := 0
  stratum : Nat := 0
  selected : Bool := false
  shortlist : Bool := false
  candidate : Bool := false
  self : Bool := false
  offset : Rat := 0
  disp : Rat := 0
  deriving DecidableEq, Repr

/-- The offset in nanoseconds (lines 1392-1396), exact instead of `long double`. -/
def offsetNs (b : List Nat) (i : Nat) : Rat :=
  let s : Int := if u32 b i < 2147483648 then u32 b i else (u32 b i : Int) - 4294967296
  ((s : Rat) + (u32 b (i + 4) : Rat) / 4294967296) * (-1000000000)

/-- One entry of the summary (lines 1391-1411).  Of 72 bytes: `dstadr` at 0, `srcadr` at 4,
`stratum` at 10, `flags` at 14, `hmode` at 15, `offset` at 20, `v6_flag` at 32, `dstadr6` at 40,
`srcadr6` at 56. -/
def fromSummary (b : List Nat) (p : Peer) : Peer :=
  { remote := address b 32 4 56, local_ := address b 32 0 40, sent := 0, received := 0, stratum := u8 b 10,
    selected := u8 b 14 / 2 % 2 = 1, shortlist := u8 b 14 / 128 % 2 = 1, candidate := u8 b 15 = 3,
    self := u8 b 14 / 8 % 2 = 1, offset := offsetNs b 20, disp := p.disp }

/-- The first loop (lines 1390-1412) from entry `i` on. -/
def fill (buf : List Nat) : Nat → Nat → List Peer → Except Fault (List Peer)
  | 0, _, ps => .ok ps
  | n + 1, i, ps =>
    match ps[i]? with
    | none => .error .outside
    | some p =>
      if buf.length < i * 72 + 72 then .error .outside
      else fill buf n (i + 1) (ps.set i (fromSummary (part buf (i * 72) 72) p))

/-- The table, the number of peers and the client during `mode7_get_peer_info`. -/
structure Table where
  peers : List Peer
  num : Nat
  client : Client

/-- The address is an IPv4 address. -/
def Addr.isV4 : Addr → Bool
  | .v4 _ => true
  | .v6 _ => false

/-- The address in the answer about a peer is the one that was asked for; not compared for IPv6
(lines 1488-1490).  Of 280 bytes: `srcadr` at 4, `rootdispersion` at 48, `v6_flag` at 240,
`srcadr6` at 264. -/
def infoMatches (a : Addr) (b : List Nat) : Except Fault Bool := if a.isV4 then sameHost a b 240 4 264 else .ok true

/-- The second loop (lines 1415-1500) from entry `i` on.  `rc` is the last result, `qs` what
happens during each query.  The statistics have 120 bytes: `srcadr` at 4, `sent` at 28,
`processed` at 36, `v6_flag` at 80, `srcadr6` at 104. -/
def details (name : Addr → Int) : Nat → Nat → Int → Table → List (List Net) → Except Fault (Int × Table)
  | 0, _, rc, t, _ => .ok (rc, t)
  | k + 1, i, _, t, qs =>
    match t.peers[i]? with
    | none => .error .outside
    | some p =>
      match query t.client (qs.headD []) { code := 3, num := 1, size := 32, data := listData p.remote, req := 120 } with
      | (.fault f, _) => .error f
      | (.rc e, c) =>
        if e = 61 then details name k (i + 1) 0 { t with client := c } qs.tail
        else .ok (e, { t with client := c })
      | (.ok _, c) =>
        match sameHost p.remote c.buf 80 4 104 with
        | .error f => .error f
        | .ok false => .ok (5, { t with client := c })
        | .ok true =>
          let p := { p with sent := u32 c.buf 28, received := u32 c.buf 36 }
          let ps := t.peers.set i p
          match query c (qs.tail.headD []) { code := 2, num := 1, size := 32, data := listData p.remote, req := 280 } with
          | (.fault f, _) => .error f
          | (.rc e, c) => .ok (e, { t with peers := ps, client := c })
          | (.ok _, c) =>
            match infoMatches p.remote c.buf with
            | .error f => .error f
            | .ok false => .ok (5, { t with peers := ps, client := c })
            | .ok true =>
              details name k (i + 1) (name p.remote)
                { t with peers := ps.set i { p with disp := (u32 c.buf 48 : Rat) * 1000000000 / 65536 }, client := c } qs.tail.tail

/-- What follows the first query (lines 1382-1502). -/
def withItems (name : Addr → Int) (t : Table) (num : Nat) (qs : List (List Net)) : Except Fault (Int × Table) :=
  let num := if 32 < num then 32 else num
  match fill t.client.buf num 0 t.peers with
  | .error f => .error f
  | .ok ps => details name num 0 0 { t with peers := ps, num := num } qs

/-- `mode7_get_peer_info` (lines 1345-1503). -/
def getPeers (name : Addr → Int) (t : Table) (qs : List (List Net)) : Except Fault (Int × Table) :=
  match query t.client (qs.headD []) { code := 1, req := 72 } with
  | (.fault f, _) => .error f
  | (.ok n, c) => withItems name { t with client := c } n qs.tail
  | (.rc e, c) => if e = 61 then withItems name { t with client := c } 0 qs.tail else .ok (e, { t with client := c })

/-! ## Clock control (lines 1506-1536) -/

/-- `mode7_clock_control` (lines 1506-1536): the flags are `SYS_FLAG_NTP` and `SYS_FLAG_KERNEL`
(lines 730-731). -/
def clockControl (c : Client) (ns : List Net) (on : Bool) : Except Fault (Nat × Client) :=
  if c.key = 0 then .ok (13, c)
  else
    match query c ns { code := if on then 12 else 13, auth := true, num := 1, size := 4, data := be32 12 } with
    | (.fault f, _) => .error f
    | (.rc e, c) => .ok (e, c)
    | (.ok _, c) => .ok (0, c)

/-! ## Creation (lines 1216-1300) -/

/-- What the system says to the calls of `sfptpd_ntpclient_mode7_create`: errnos, 0 for success. -/
structure Sys0 where
  memory : Bool := true
  socket : Nat := 0
  connect : Nat := 0

/-- `sfptpd_ntpclient_mode7_create` (lines 1216-1285): the client, or the errno and whether a socket
was opened and closed again.  `hash` is `MD5authencrypt` for a key. -/
def create (w : Sys0) (hash : Int → List Nat → List Nat → List Nat) (key : Int) (value : Option (List Nat)) :
    Except (Nat × Nat) Client :=
  if !w.memory then .error (12, 0)
  else if key ≠ 0 && value = none then .error (22, 0)
  else if w.socket ≠ 0 then .error (w.socket, 0)
  else if w.connect ≠ 0 then .error (w.connect, 1)
  else .ok { key := key, buf := List.replicate 4096 0, digest := hash key ((value.getD []).take 31) }

end Verif.Ntp7
