/-!
# Model of the configuration file parser

Models `src/sfptpd_config.c`: `tokenize` (141-252), the syntax check and
option parsing (255-421) and the loop of `sfptpd_config_parse_file` (815-896).

Simplifications: characters are numbers, a line buffer is a list of them.  The
option handlers, the section validators and the lookup of sections are
parameters acting on an opaque configuration.  Opening the file and the logging
of the lexed configuration are not modelled.  `none` is undefined behaviour or
a failed assertion.
-/

namespace Verif.Config

/-! ## Tokenizer -/

/-- Local variables of `tokenize` (lines 143-148) and the buffer. -/
structure Tok where
  buf : List Nat
  pos : Nat
  token : Option Nat
  escaped : Bool
  sq : Bool
  dq : Bool
  tokens : List Nat
deriving DecidableEq

/-- One iteration of the loop (lines 150-237); `true` when it is left. -/
def tokStep (max : Nat) (s : Tok) : Option (Tok × Bool) :=
  match s.buf[s.pos]? with
  | none => none
  | some c =>
    if c = 0 then some (s, true)
    else if !s.escaped ∧ c = 92 then some ({ s with escaped := true, pos := s.pos + 1 }, false)
    else match s.token with
      | none =>
        if s.sq ∨ s.dq then
          if !s.escaped ∧ ((s.sq ∧ c = 39) ∨ (s.dq ∧ c = 34)) then
            if s.tokens.length < max then
              if s.tokens.length + 1 = max then
                some ({ s with buf := s.buf.set s.pos 0, sq := false, dq := false, tokens := s.tokens ++ [s.pos] }, true)
              else some ({ s with buf := s.buf.set s.pos 0, sq := false, dq := false, tokens := s.tokens ++ [s.pos],
                                  escaped := false, pos := s.pos + 1 }, false)
            else none
          else some ({ s with token := some s.pos, escaped := false, pos := s.pos + 1 }, false)
        else if !s.escaped ∧ c = 39 then some ({ s with sq := true, escaped := false, pos := s.pos + 1 }, false)
        else if !s.escaped ∧ c = 34 then some ({ s with dq := true, escaped := false, pos := s.pos + 1 }, false)
        else if !s.escaped ∧ (c = 10 ∨ c = 35) then some (s, true)
        else if c ≠ 32 ∧ c ≠ 9 then some ({ s with token := some s.pos, escaped := false, pos := s.pos + 1 }, false)
        else some ({ s with escaped := false, pos := s.pos + 1 }, false)
      | some t =>
        if s.escaped then
          if s.pos < t + 1 then none
          else some ({ s with buf := s.buf.take (t + 1) ++ (s.buf.drop t).take (s.pos - t - 1) ++ s.buf.drop s.pos,
                              token := some (t + 1), escaped := false, pos := s.pos + 1 }, false)
        else if (s.sq ∧ c = 39) ∨ (s.dq ∧ c = 34) ∨ (!s.sq ∧ !s.dq ∧ (c = 32 ∨ c = 9 ∨ c = 10 ∨ c = 35)) then
          if s.tokens.length < max then
            if c = 10 ∨ c = 35 ∨ s.tokens.length + 1 = max then
              some ({ s with buf := s.buf.set s.pos 0, sq := false, dq := false, tokens := s.tokens ++ [t], token := none }, true)
            else some ({ s with buf := s.buf.set s.pos 0, sq := false, dq := false, tokens := s.tokens ++ [t], token := none,
                                pos := s.pos + 1 }, false)
          else none
        else some ({ s with pos := s.pos + 1 }, false)

/-- The loop: at most one iteration per character of the buffer. -/
def tokLoop (max : Nat) : Nat → Tok → Option Tok
  | 0, _ => none
  | n + 1, s =>
    match tokStep max s with
    | none => none
    | some (s, true) => some s
    | some (s, false) => tokLoop max n s

/-- The end of `tokenize` (lines 239-251). -/
def tokEnd (max : Nat) (s : Tok) : Option (List Nat × List Nat) :=
  match s.token with
  | none => some (s.buf, s.tokens)
  | some t =>
    let pos := if s.escaped then s.pos - 1 else s.pos
    if s.escaped ∧ s.pos = 0 then none
    else if pos < s.buf.length ∧ s.tokens.length < max then some (s.buf.set pos 0, s.tokens ++ [t])
    else none

/-- `tokenize` (lines 141-252): the buffer afterwards and the positions of the tokens. -/
def tokenize (buf : List Nat) (max : Nat) : Option (List Nat × List Nat) :=
  match tokLoop max (buf.length + 1) ⟨buf, 0, none, false, false, false, []⟩ with
  | none => none
  | some s => tokEnd max s

/-! ## Options -/

/-- A configuration section as seen by the parser: its name, category and
whether it is the global one of the category. -/
structure Sec where
  name : List Nat
  category : Nat
  isGlobal : Bool
deriving DecidableEq

/-- `sfptpd_config_option_t`: name, arity, scope and handler. -/
structure Opt (σ : Type) where
  name : List Nat
  numParams : Int
  isGlobal : Bool
  confidential : Bool
  parse : σ → Sec → List (List Nat) → Int × σ

/-- `struct sfptpd_config_option_set`. -/
structure OptSet (σ : Type) where
  options : List (Opt σ)
  validator : Option (σ → Sec → Int)

/-- The registered options and access to the sections of a configuration. -/
structure Env (σ : Type) where
  sets : Nat → Option (OptSet σ)
  find : σ → List Nat → Option Sec
  instances : σ → Nat → List Sec

/-- A call of a handler: name of the option, section, parameters. -/
structure Called where
  option : List Nat
  sec : Sec
  params : List (List Nat)
deriving DecidableEq

/-- `EINVAL` and `ENOENT`. -/
def EINVAL : Int := 22
def ENOENT : Int := 2

/-- The loop applying a global option to the instances (lines 379-390). -/
def applyInstances {σ : Type} (opt : Opt σ) (params : List (List Nat)) : List Sec → σ → List Called → Option (σ × List Called)
  | [], c, log => some (c, log)
  | s :: ss, c, log =>
    let r := opt.parse c s params
    if r.1 = 0 then applyInstances opt params ss r.2 (log ++ [⟨opt.name, s, params⟩]) else none

/-- The body of the option loop for a matching option (lines 329-393). -/
def applyOption {σ : Type} (env : Env σ) (opt : Opt σ) (c : σ) (sec : Sec) (params : List (List Nat)) :
    Option (Int × σ × List Called) :=
  if opt.isGlobal ∧ !sec.isGlobal then some (-EINVAL, c, [])
  else
    let exact := decide (opt.numParams ≥ 0)
    let reqd : Int := if exact then opt.numParams else -opt.numParams - 1
    if (exact ∧ (params.length : Int) ≠ reqd) ∨ (!exact ∧ (params.length : Int) < reqd) then some (-EINVAL, c, [])
    else
      let r := opt.parse c sec params
      let log : List Called := [⟨opt.name, sec, params⟩]
      if r.1 ≠ 0 then some (-r.1, r.2, log)
      else if sec.isGlobal then
        match applyInstances opt params (env.instances r.2 sec.category) r.2 log with
        | none => none
        | some (c, log) => some (if opt.confidential then 1 else 0, c, log)
      else some (if opt.confidential then 1 else 0, r.2, log)

/-- The search for the option (lines 324-400). -/
def searchOption {σ : Type} (env : Env σ) (c : σ) (sec : Sec) (name : List Nat) (params : List (List Nat)) :
    List (Opt σ) → Option (Int × σ × List Called)
  | [] => some (-ENOENT, c, [])
  | opt :: opts => if name = opt.name then applyOption env opt c sec params else searchOption env c sec name params opts

/-- `config_parse_option` (lines 296-401). -/
def parseOption {σ : Type} (env : Env σ) (c : σ) (sec : Sec) (tokens : List (List Nat)) : Option (Int × σ × List Called) :=
  match tokens with
  | [] => none
  | name :: params =>
    match env.sets sec.category with
    | none => some (-ENOENT, c, [])
    | some set => searchOption env c sec name params set.options

/-! ## Files -/

/-- `convert_dashes_to_underscores` (lines 255-263). -/
def dashes (t : List Nat) : List Nat := t.map (fun c => if c = 45 then 95 else c)

/-- `config_syntax_check` (lines 266-288): the last `[` must be at the start,
the first `]` at the end. -/
def syntaxOk (t : List Nat) : Bool :=
  let openBad := decide (91 ∈ t.drop 1)
  let closeBad := decide (93 ∈ t.take (t.length - 1))
  !(openBad || closeBad)

/-- `config_is_new_section` (lines 404-421). -/
def newSection (t : List Nat) : Option (List Nat) :=
  if t.head? = some 91 ∧ t.getLast? = some 93 then some ((t.drop 1).take (t.length - 2)) else none

/-- The validator of a section (lines 834-836, 891-893). -/
def validate {σ : Type} (env : Env σ) (c : σ) (sec : Sec) : Option Int :=
  match env.sets sec.category with
  | none => none
  | some set => match set.validator with
    | none => some 0
    | some v => some (v c sec)

/-- State of the loop: configuration, current section, handler calls. -/
structure FileState (σ : Type) where
  conf : σ
  section_ : Option Sec
  log : List Called

/-- One line with its tokens (lines 817-888): an error code or the next state. -/
def lineStep {σ : Type} (env : Env σ) (st : FileState σ) (tokens : List (List Nat)) : Option (Int × FileState σ) :=
  match tokens with
  | [] => some (0, st)
  | t :: params =>
    let t := dashes t
    if !syntaxOk t then some (EINVAL, st)
    else match newSection t with
      | some name =>
        let v := match st.section_ with
          | none => some 0
          | some s => validate env st.conf s
        match v with
        | none => none
        | some rc =>
          if rc ≠ 0 then some (rc, st)
          else match env.find st.conf name with
            | none => some (ENOENT, { st with section_ := none })
            | some s => some (0, { st with section_ := some s })
      | none =>
        match st.section_ with
        | none => some (EINVAL, st)
        | some s =>
          match parseOption env st.conf s (t :: params) with
          | none => none
          | some (rc, c, log) =>
            if rc < 0 then some (-rc, { st with conf := c, log := st.log ++ log })
            else some (0, { st with conf := c, log := st.log ++ log })

/-- The loop over the lines and the final validation (lines 815-896). -/
def fileLoop {σ : Type} (env : Env σ) : List (List (List Nat)) → FileState σ → Option (Int × FileState σ)
  | [], st =>
    match st.section_ with
    | none => none
    | some s => (validate env st.conf s).map (fun rc => (rc, st))
  | l :: ls, st =>
    match lineStep env st l with
    | none => none
    | some (rc, st) => if rc ≠ 0 then some (rc, st) else fileLoop env ls st

/-- `sfptpd_config_parse_file` on the tokens of each line. -/
def parseFile {σ : Type} (env : Env σ) (c : σ) (lines : List (List (List Nat))) : Option (Int × FileState σ) :=
  fileLoop env lines ⟨c, none, []⟩

end Verif.Config
