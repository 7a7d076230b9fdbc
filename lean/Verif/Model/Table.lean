import Verif.Model.Py
/-!
# Arrays as the models see them

A Python list of ints is modelled by `Arr`: its length and its entries. The big numeric tables of the
project are written as a `Table`: rows of 64 entries packed in one number, in a binary tree.
-/
namespace Verif

/-- A Python list of non-negative ints. -/
structure Arr where
  size : Nat
  at' : Nat → Nat

/-- `a[i]` with a non-negative index. -/
def Arr.get (a : Arr) (i : Nat) : Py Nat := if i < a.size then .ok (a.at' i) else .error .indexError

/-- The array with the entries of a list. -/
def Arr.ofList (l : List Nat) : Arr := ⟨l.length, fun i => l.getD i 0⟩

/-- A complete binary tree of rows. -/
inductive Tree
  | leaf (row : Nat)
  | node (l r : Tree)

/-- Row `i` of a tree of depth `d` (most significant bit first). -/
@[reducible] noncomputable def Tree.row (t : Tree) : Nat → Nat → Nat :=
  Tree.rec (fun n _ _ => n)
    (fun _ _ fl fr i d => Nat.rec (fl i (Nat.sub d 1)) (fun _ _ => fr i (Nat.sub d 1)) (Nat.mod (Nat.shiftRight i (Nat.sub d 1)) 2)) t

/-- A table: number of entries, bits per entry, depth of the tree, rows of 64 entries. -/
structure Table where
  size : Nat
  bits : Nat
  depth : Nat
  rows : Tree

/-- Entry `i` (meaningful below `size`). -/
noncomputable def Table.entry (t : Table) (i : Nat) : Nat :=
  Nat.mod (Nat.shiftRight (t.rows.row (Nat.shiftRight i 6) t.depth) (Nat.mul t.bits (Nat.mod i 64))) (Nat.pow 2 t.bits)

noncomputable def Table.arr (t : Table) : Arr := ⟨t.size, t.entry⟩

end Verif
