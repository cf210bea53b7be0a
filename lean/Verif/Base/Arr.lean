/-!
# Checked arrays

Numba compiled code (`nopython=True`) does no bounds checking.  The model gives every array
an explicit size, and every read and write outside of it returns `none`.  A model function that
returns `some` therefore never touched memory outside its arrays.
-/

namespace Verif

/-- A fixed size array: `size` and content.  Only the indices `< size` are meaningful. -/
structure Arr (α : Type _) where
  /-- number of elements -/
  size : Nat
  /-- element at an index; junk for indices `≥ size` -/
  get : Nat → α

namespace Arr

variable {α : Type _}

/-- `np.full(n, a)`. -/
def full (n : Nat) (a : α) : Arr α := ⟨n, fun _ => a⟩

/-- Array built from a list (used by the concrete examples). -/
def ofList [Inhabited α] (l : List α) : Arr α := ⟨l.length, fun i => l.getD i default⟩

/-- Content as a list. -/
def toList (a : Arr α) : List α := (List.range a.size).map a.get

/-- `a[i]`, `none` when out of bounds. -/
def read (a : Arr α) (i : Nat) : Option α := if i < a.size then some (a.get i) else none

/-- `a[i] = v`, `none` when out of bounds. -/
def write (a : Arr α) (i : Nat) (v : α) : Option (Arr α) :=
  if i < a.size then some ⟨a.size, fun j => if j = i then v else a.get j⟩ else none

/-- `dst[d : d + n] = src[s : s + n]`; both slices must lie inside their arrays. -/
def copySlice (dst : Arr α) (d : Nat) (src : Arr α) (s n : Nat) : Option (Arr α) :=
  if d + n ≤ dst.size ∧ s + n ≤ src.size then
    some ⟨dst.size, fun j => if d ≤ j ∧ j < d + n then src.get (s + (j - d)) else dst.get j⟩
  else none

@[simp] theorem full_size (n : Nat) (a : α) : (full n a).size = n := rfl
@[simp] theorem full_get (n : Nat) (a : α) (i : Nat) : (full n a).get i = a := rfl

theorem read_of_lt {a : Arr α} {i : Nat} (h : i < a.size) : a.read i = some (a.get i) := by
  simp [read, h]

/-- The array after a write that is in bounds. -/
def upd (a : Arr α) (i : Nat) (v : α) : Arr α :=
  ⟨a.size, fun j => if j = i then v else a.get j⟩

theorem write_of_lt {a : Arr α} {i : Nat} (h : i < a.size) (v : α) :
    a.write i v = some (a.upd i v) := by
  simp [write, upd, h]

@[simp] theorem upd_size (a : Arr α) (i : Nat) (v : α) : (a.upd i v).size = a.size := rfl
theorem upd_get (a : Arr α) (i : Nat) (v : α) (j : Nat) :
    (a.upd i v).get j = if j = i then v else a.get j := rfl
@[simp] theorem upd_get_self (a : Arr α) (i : Nat) (v : α) : (a.upd i v).get i = v := by
  simp [upd_get]
theorem upd_get_ne (a : Arr α) {i j : Nat} (v : α) (h : j ≠ i) :
    (a.upd i v).get j = a.get j := by
  simp [upd_get, h]

/-- The array after a slice copy that is in bounds. -/
def blit (dst : Arr α) (d : Nat) (src : Arr α) (s n : Nat) : Arr α :=
  ⟨dst.size, fun j => if d ≤ j ∧ j < d + n then src.get (s + (j - d)) else dst.get j⟩

theorem copySlice_of_le {dst src : Arr α} {d s n : Nat} (h1 : d + n ≤ dst.size)
    (h2 : s + n ≤ src.size) : dst.copySlice d src s n = some (dst.blit d src s n) := by
  simp [copySlice, blit, h1, h2]

@[simp] theorem blit_size (dst src : Arr α) (d s n : Nat) :
    (dst.blit d src s n).size = dst.size := rfl
theorem blit_get (dst src : Arr α) (d s n j : Nat) :
    (dst.blit d src s n).get j = if d ≤ j ∧ j < d + n then src.get (s + (j - d)) else dst.get j :=
  rfl

theorem read_eq_some {a : Arr α} {i : Nat} {v : α} :
    a.read i = some v ↔ i < a.size ∧ a.get i = v := by
  unfold read; split <;> simp [*]

theorem write_eq_some {a b : Arr α} {i : Nat} {v : α} :
    a.write i v = some b ↔ i < a.size ∧ b = a.upd i v := by
  unfold write; split
  · simp only [Option.some.injEq, upd, true_and, *]; exact eq_comm
  · simp [*]

end Arr

end Verif
