/-!
# Model of the in-memory database

Models `src/sfptpd_db.c`: selections (201-261), the linked-list store
(282-420), the array store (425-626) and the public operations (633-960,
1147-1181); not the diagnostic dump.

Simplifications: records are opaque values of a type `R`; a reference is a
number (the address of a list node, the index of an array slot).  `malloc` for
list nodes is a parameter giving an address from those in use; the content of
memory obtained by `realloc` is the parameter `junk`; `qsort_r` is a parameter.
Allocation succeeds.  `none` is undefined behaviour or a failed assertion.
-/

namespace Verif.Db

/-! ## Selections -/

/-- One filter: field, value, inverted. -/
structure Filter (V : Type) where
  field : Nat
  value : V
  invert : Bool

/-- `struct selection` (lines 59-69). -/
structure Selection (V : Type) where
  filters : List (Filter V)
  sorts : List Nat

/-- The variable arguments: keys and values. -/
inductive Arg (V : Type) where
  | key (k : Int)
  | value (v : V)

/-- The sort keys of `build_selection_params` (lines 249-260). -/
def buildSorts {V : Type} : List (Arg V) → List Nat → Option (List Nat)
  | .key k :: rest, acc =>
    if k = -1 then some acc
    else if acc.length < 10 then buildSorts rest (acc ++ [k.toNat]) else none
  | _, _ => none

/-- `build_selection_params` (lines 227-261): `-1` end, `-2` order by, `-3` not. -/
def build {V : Type} : List (Arg V) → List (Filter V) → Option (Selection V)
  | .key k :: rest, acc =>
    if k = -3 then
      match rest with
      | .key k :: rest =>
        if k < 0 then (if k = -2 then (buildSorts rest []).map (⟨acc, ·⟩) else some ⟨acc, []⟩)
        else if acc.length < 10 then
          match rest with
          | .value v :: rest => build rest (acc ++ [⟨k.toNat, v, true⟩])
          | _ => none
        else none
      | _ => none
    else if k < 0 then (if k = -2 then (buildSorts rest []).map (⟨acc, ·⟩) else some ⟨acc, []⟩)
    else if acc.length < 10 then
      match rest with
      | .value v :: rest => build rest (acc ++ [⟨k.toNat, v, false⟩])
      | _ => none
    else none
  | _, _ => none
termination_by structural l => l

/-- `struct sfptpd_db_table_def`: the comparison functions of each field. -/
structure TableDef (V R : Type) where
  compareKey : Nat → V → R → Int
  compareRecord : Nat → R → R → Int

/-- The loop of `check_selection_matches` (lines 213-223). -/
def checkLoop {V R : Type} (d : TableDef V R) (record : R) : List (Filter V) → Bool
  | [] => true
  | f :: fs =>
    let m := decide (d.compareKey f.field f.value record = 0)
    if (if f.invert then m else !m) then false else checkLoop d record fs

/-- `query_compare_fn` (lines 770-787). -/
def compareLoop {V R : Type} (d : TableDef V R) (a b : R) : List Nat → Int
  | [] => 0
  | k :: ks =>
    let cmp := d.compareRecord k a b
    if cmp ≠ 0 then cmp else compareLoop d a b ks

/-! ## Stores -/

/-- `struct store_ops` (lines 71-80), on a store of type `S`. `setData` is a
write through the pointer of `getData`. -/
structure Ops (S R : Type) where
  insert : S → R → Option (Nat × S)
  delete : S → Nat → Option S
  find : S → (R → Bool) → Option (Option Nat)
  getData : S → Nat → Option R
  setData : S → Nat → R → Option S
  foreach : S → Option (List Nat)

/-- The linked list: address and record of each node. -/
abbrev LList (R : Type) := List (Nat × R)

/-- The search and unlinking of `linked_list_delete` (lines 326-340). -/
def llDelete {R : Type} : LList R → Nat → Option (LList R)
  | [], _ => none
  | (a, r) :: rest, ref => if a = ref then some rest else (llDelete rest ref).map ((a, r) :: ·)

/-- `linked_list_find` (lines 388-420). -/
def llFind {R : Type} (p : R → Bool) : LList R → Option Nat
  | [] => none
  | (a, r) :: rest => if p r then some a else llFind p rest

/-- Access through a node pointer. -/
def llGet {R : Type} : LList R → Nat → Option R
  | [], _ => none
  | (a, r) :: rest, ref => if a = ref then some r else llGet rest ref

/-- Write through a node pointer. -/
def llSet {R : Type} : LList R → Nat → R → Option (LList R)
  | [], _, _ => none
  | (a, r) :: rest, ref, x => if a = ref then some ((a, x) :: rest) else (llSet rest ref x).map ((a, r) :: ·)

/-- `linked_list_ops` (lines 172-179). -/
def llOps {R : Type} (malloc : List Nat → Nat) : Ops (LList R) R where
  insert s r := some (malloc (s.map (·.1)), (malloc (s.map (·.1)), r) :: s)
  delete := llDelete
  find s p := some (llFind p s)
  getData := llGet
  setData := llSet
  foreach s := some (s.map (·.1))

/-- An array element: `struct array_header` (lines 103-107) and the record. -/
structure Slot (R : Type) where
  magic : Bool
  populated : Bool
  next : Nat
  payload : R

/-- `struct array` (lines 109-117). -/
structure Arr (R : Type) where
  cap : Nat
  hwm : Nat
  count : Nat
  first : Nat
  data : List (Slot R)

/-- `array_create` (lines 425-444); `zero` is the cleared element. -/
def arrCreate {R : Type} (cap : Nat) (zero : Slot R) : Arr R := ⟨cap, 0, 0, 0, List.replicate cap zero⟩

/-- `get_array_header` (lines 447-463) for an existing element. -/
def header {R : Type} (a : Arr R) (i : Nat) : Option (Slot R) :=
  if i < a.hwm then
    match a.data[i]? with
    | some s => if s.magic then some s else none
    | none => none
  else none

/-- `array_insert` (lines 464-496). -/
def arrInsert {R : Type} (junk : Nat → Slot R) (a : Arr R) (r : R) : Option (Nat × Arr R) :=
  if a.hwm > a.cap then none
  else if a.count = a.hwm then
    if a.count = a.cap ∧ a.cap = 0 then none
    else
      let a := if a.count = a.cap then
          { a with cap := a.cap * 2, data := a.data ++ (List.range a.cap).map (fun k => junk (a.cap + k)) } else a
      match a.data[a.hwm]? with
      | none => none
      | some s => some (a.hwm, { a with hwm := a.hwm + 1, count := a.count + 1, data := a.data.set a.hwm ⟨true, true, s.next, r⟩ })
  else
    match header a a.first with
    | none => none
    | some s =>
      if s.populated then none
      else some (a.first, { a with first := s.next, count := a.count + 1, data := a.data.set a.first ⟨true, true, s.next, r⟩ })

/-- `array_delete` (lines 499-531). -/
def arrDelete {R : Type} (a : Arr R) (i : Nat) : Option (Arr R) :=
  match header a i with
  | none => none
  | some s =>
    if a.count = 0 then none
    else
      let count := a.count - 1
      if count = 0 then some { a with hwm := 0, count := count, data := a.data.set i { s with populated := false } }
      else if i + 1 = a.hwm then
        some { a with hwm := a.hwm - 1, count := count, data := a.data.set i { s with populated := false } }
      else some { a with first := i, count := count, data := a.data.set i { s with populated := false, next := a.first } }

/-- The loop of `array_find` (lines 607-614) from index `i` on. -/
def arrFindLoop {R : Type} (a : Arr R) (p : R → Bool) : Nat → Nat → Option (Option Nat)
  | 0, _ => some none
  | n + 1, i =>
    match header a i with
    | none => none
    | some s => if s.populated ∧ p s.payload then some (some i) else arrFindLoop a p n (i + 1)

/-- The loop of `array_foreach` (lines 581-588): the indices visited. -/
def arrForeachLoop {R : Type} (a : Arr R) : Nat → Nat → Option (List Nat)
  | 0, _ => some []
  | n + 1, i =>
    match header a i with
    | none => none
    | some s => (arrForeachLoop a n (i + 1)).map (fun l => if s.populated then i :: l else l)

/-- `array_ops` (lines 182-189). -/
def arrOps {R : Type} (junk : Nat → Slot R) : Ops (Arr R) R where
  insert := arrInsert junk
  delete := arrDelete
  find a p := if a.hwm > a.cap then none else arrFindLoop a p a.hwm 0
  getData a i := (header a i).map (·.payload)
  setData a i r := (header a i).map (fun s => { a with data := a.data.set i { s with payload := r } })
  foreach a :=
    if a.hwm > a.cap then none
    else match arrForeachLoop a a.hwm 0 with
      | none => none
      | some l => if l.length = a.count then some l else none

/-! ## Public operations -/

section
variable {S R V : Type} (o : Ops S R) (d : TableDef V R)

/-- `sfptpd_db_table_foreach` without constraints (lines 872-881, 858-866):
the references and records visited. -/
def visit (s : S) : Option (List (Nat × R)) :=
  match o.foreach s with
  | none => none
  | some refs => refs.mapM (fun i => (o.getData s i).map (i, ·))

/-- `sfptpd_db_table_count_impl` (lines 707-735). -/
def count (s : S) (sel : Selection V) : Option Nat :=
  (visit o s).map (fun l => l.foldl (fun n x => if checkLoop d x.2 sel.filters then n + 1 else n) 0)

/-- `table_query` (lines 748-823): the second pass stores into the array
dimensioned by the first. -/
def query (qsort : (R → R → Int) → List R → List R) (s : S) (sel : Selection V) : Option (List R) :=
  match count o d s sel, visit o s with
  | some n, some l =>
    let ptrs := l.filter (fun x => checkLoop d x.2 sel.filters)
    if ptrs.length > n then none
    else
      let rs := ptrs.map (·.2)
      some (if sel.sorts ≠ [] then qsort (fun a b => compareLoop d a b sel.sorts) rs else rs)
  | _, _ => none

/-- `sfptpd_db_table_find_impl` (lines 683-697). -/
def find (s : S) (sel : Selection V) : Option (Option Nat) := o.find s (fun r => checkLoop d r sel.filters)

/-- The deletion loop of `table_delete` (lines 968-972). -/
def deleteAll (s : S) : List Nat → Option S
  | [] => some s
  | i :: is => (o.delete s i).bind (deleteAll · is)

/-- `table_query_refs` and `table_delete` (lines 915-976). -/
def delete (s : S) (sel : Selection V) : Option S :=
  match count o d s sel, visit o s with
  | some n, some l =>
    let refs := (l.filter (fun x => checkLoop d x.2 sel.filters)).map (·.1)
    if refs.length > n ∨ sel.sorts ≠ [] then none else deleteAll o s refs
  | _, _ => none

end

end Verif.Db
