import Verif.Broadcast

/-!
# What it means that a formula acts on arrays entry by entry
-/

namespace RockPhy.Spec

open Nd

/-- The common shape of several arrays: numpy's rule applied to one after the other; `none` when
they do not fit together. -/
def bcs (l : List (Option (List ℕ))) : Option (List ℕ) := l.foldr bc (some [])

/-- `r` is the result of a formula of the arrays `args`, taken entry by entry.  Its shape is the
common shape of these arrays (in particular, when they have none, `ValueError` is raised), and every
entry is the number the formula gives for the entries of the arrays that meet there.  The formula
`v` is written as a function of the way an array is turned into a number. -/
def Elementwise (r : Nd Fl) (args : List (Nd Fl)) (v : (Nd Fl → Fl) → Fl) : Prop :=
  r.shape = bcs (args.map shape) ∧ (r.shape ≠ none → ∀ i, r.read i = v fun x => x.read i)

/-- A log: a one dimensional array with the entries `f 0, …, f (n - 1)`. -/
def vec (n : ℕ) (f : ℕ → Fl) : Nd Fl := arr [n] fun i => f (i.headD 0)

/-- A section: a table of `n` rows and `m` columns with `f k j` in row `k` and column `j`. -/
def sec (n m : ℕ) (f : ℕ → ℕ → Fl) : Nd Fl := arr [m, n] fun i => f (i.tail.headD 0) (i.headD 0)

/-- The result is a log with the entries `f 0, …, f (n - 1)`. -/
def IsVec (r : Nd Fl) (n : ℕ) (f : ℕ → Fl) : Prop :=
  r.shape = some [n] ∧ ∀ k < n, r.read [k] = f k

/-- The result is a table of `n` rows and `m` columns with `f k j` in row `k` and column `j`. -/
def IsTable (r : Nd Fl) (n m : ℕ) (f : ℕ → ℕ → Fl) : Prop :=
  r.shape = some [m, n] ∧ ∀ k < n, ∀ j < m, r.read [j, k] = f k j

/-- The result has three axes, of `n`, 1 and `m` entries, with `f k j` at position `k, 0, j`. -/
def IsSheet (r : Nd Fl) (n m : ℕ) (f : ℕ → ℕ → Fl) : Prop :=
  r.shape = some [m, 1, n] ∧ ∀ k < n, ∀ j < m, r.read [j, 0, k] = f k j

theorem bcs_nil : bcs [] = some [] := rfl
theorem bcs_cons (a : Option (List ℕ)) (l) : bcs (a :: l) = bc a (bcs l) := rfl

theorem bc_bcs {a : Option (List ℕ)} {l} (h : a ∈ l) : bc a (bcs l) = bcs l := by
  induction l with
  | nil => cases h
  | cons b l ih =>
    rw [bcs_cons]
    rcases List.mem_cons.mp h with rfl | h
    · rw [bc_left_self]
    · rw [bc_left_comm, ih h]

theorem Elementwise.of {r : Nd Fl} {args : List (Nd Fl)} {v : (Nd Fl → Fl) → Fl}
    (hs : r.shape = bcs (args.map shape))
    (hr : ∀ u, u ≠ none → (∀ x ∈ args, Fits u x) → ∀ i, r.read i = v fun x => x.read i) :
    Elementwise r args v := by
  refine ⟨hs, fun h => hr r.shape h fun x hx => ⟨?_, h⟩⟩
  rw [hs]
  exact bc_bcs (List.mem_map.mpr ⟨x, hx, rfl⟩)

theorem bcs_absorb {l : List (Option (List ℕ))} {u : Option (List ℕ)} :
    bc (bcs l) u = u ↔ ∀ a ∈ l, bc a u = u := by
  induction l with
  | nil => simp [bcs_nil, nil_bc]
  | cons a l ih => rw [bcs_cons, bc_absorb, ih, List.forall_mem_cons]

theorem Elementwise.fits {r : Nd Fl} {args : List (Nd Fl)} {v : (Nd Fl → Fl) → Fl}
    (h : Elementwise r args v) {u : Option (List ℕ)} (hu : u ≠ none)
    (ha : ∀ x ∈ args, Fits u x) : Fits u r := by
  refine ⟨?_, hu⟩
  rw [h.1, bcs_absorb]
  intro a ha'
  obtain ⟨x, hx, rfl⟩ := List.mem_map.mp ha'
  exact (ha x hx).1

theorem Elementwise.read {r : Nd Fl} {args : List (Nd Fl)} {v : (Nd Fl → Fl) → Fl}
    (h : Elementwise r args v) {u : Option (List ℕ)} (hu : u ≠ none)
    (ha : ∀ x ∈ args, Fits u x) (i : List ℕ) : r.read i = v fun x => x.read i := by
  refine h.2 (fun e => hu ?_) i
  have := (h.fits hu ha).1
  rw [e] at this
  exact this.symm

end RockPhy.Spec
