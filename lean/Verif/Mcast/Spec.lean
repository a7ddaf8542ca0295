import Verif.Mcast.Model

/-
# Specification: who is registered for what

A register of users as a plain list, kept from the calls made and their return
codes alone.
-/

namespace Verif.Mcast

/-- A registered user. -/
structure Entry where
  id : Nat
  pub : Bool
  user : User
deriving DecidableEq

/-- The register after a call of thread `t` that returned `rc`. -/
def enter (reg : List Entry) (t : Nat) (i : In) (rc : Nat) : List Entry :=
  if rc ≠ 0 then reg
  else match i with
    | .subscribe id _ _ => ⟨id, false, ⟨t, none⟩⟩ :: reg
    | .subscribeEvent id (.ok w) _ _ => ⟨id, false, ⟨t, some w⟩⟩ :: reg
    | .publish id _ _ => ⟨id, true, ⟨t, none⟩⟩ :: reg
    | .unsubscribe id => reg.eraseP (fun e => decide (e.id = id) && (e.pub == false && decide (e.user.thread = t)))
    | .unpublish id => reg.eraseP (fun e => decide (e.id = id) && (e.pub == true && decide (e.user.thread = t)))
    | _ => reg

/-- The return code among what was done. -/
def returned : List Act → Option Nat
  | [] => none
  | .ret rc :: _ => some rc
  | _ :: as => returned as

/-- The register after a run, from what was called and returned. -/
def registry : List Entry → List (Nat × In × List Act) → List Entry
  | reg, [] => reg
  | reg, (t, i, acts) :: tr => match returned acts with
    | none => registry reg tr
    | some rc => registry (enter reg t i rc) tr

/-- The registered users of a message. -/
def registered (reg : List Entry) (id : Nat) (pub : Bool) : List User :=
  (reg.filter (fun e => decide (e.id = id) && e.pub == pub)).map (·.user)

/-- The messages allocated, sent and freed by a thread. -/
def allocated (t : Nat) (tr : List (Nat × In × List Act)) : List Nat :=
  tr.flatMap fun x => if x.1 = t then x.2.2.filterMap (fun | .alloc m => some m | _ => none) else []
/-- Messages sent by a thread or freed. -/
def disposed (t : Nat) (tr : List (Nat × In × List Act)) : List Nat :=
  tr.flatMap fun x => if x.1 = t then x.2.2.filterMap (fun | .send _ m _ => some m | .free m => some m | _ => none) else []

/-- The writers made. -/
def made (tr : List (Nat × In × List Act)) : List Nat :=
  tr.flatMap fun x => x.2.2.filterMap (fun | .newWriter w => some w | _ => none)
/-- The writers destroyed. -/
def destroyed (tr : List (Nat × In × List Act)) : List Nat :=
  tr.flatMap fun x => x.2.2.filterMap (fun | .delWriter w => some w | _ => none)

end Verif.Mcast
