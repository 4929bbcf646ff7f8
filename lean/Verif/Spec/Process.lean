import Verif.Model.Process

/-!
# Specification of a process with several objects
-/

namespace Sedaman.Spec

/-- A program: which object is called, with what. The results are listed with the object. -/
def Proc.run (H : Host) : Proc → List (Nat × Req) → List (Nat × Out Reply) × Proc
  | s, [] => ([], s)
  | s, (i, r) :: t =>
    let (x, s) := s.step H i r
    let (xs, s) := Proc.run H s t
    ((i, x) :: xs, s)

/-- The part of a list that concerns object `i`. -/
def only {α : Type} (i : Nat) : List (Nat × α) → List α
  | [] => []
  | (j, a) :: t => if j = i then a :: only i t else only i t

/-- A process at its start: these objects, and nothing in the static array. -/
def started (objs : List Obj) : Proc := ⟨objs, []⟩

/-- The object writes a SEG-D file in format 8015. -/
def Groups : Obj → Prop
  | .segdOut s => s.args.gh1.formatCode = 8015
  | _ => False

/-- What the calls of object `i` in a program return, and the object at the end of it. -/
def seen (H : Host) (objs : List Obj) (prog : List (Nat × Req)) (i : Nat) : List (Out Reply) × Option Obj :=
  let (xs, s) := Proc.run H (started objs) prog
  (only i xs, s.objs[i]?)

/-- The same calls in a process that has no other object. -/
def alone (H : Host) (o : Obj) (rs : List Req) : List (Out Reply) × Option Obj :=
  seen H [o] (rs.map fun r => (0, r)) 0

end Sedaman.Spec
