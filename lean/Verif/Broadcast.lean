import Verif.Num
import Verif.NdAttr

/-!
# Numpy arrays

The sixth instance of `PyNum`: a value is a whole array of any number of dimensions (a Python number
is an array without dimensions) or the `ValueError` of an operation on arrays whose shapes do not
fit.  Operators and functions of numpy act entry by entry, with numpy's broadcasting rule.

Comparisons of arrays give arrays of truth values, which `PyNum` does not have; no theorem uses the
comparisons of this instance.
-/

namespace RockPhy

/-- The common size of two axes: equal sizes, or one of them is one. -/
def bdim (a b : ℕ) : Option ℕ :=
  if a = b then some a else if a = 1 then some b else if b = 1 then some a else none

/-- The common shape of two arrays; shapes are listed from the last axis to the first, so that
missing leading axes are missing at the end of the list. -/
def bshape : List ℕ → List ℕ → Option (List ℕ)
  | [], t => some t
  | s, [] => some s
  | a :: s, b :: t => do
    let d ← bdim a b
    let u ← bshape s t
    return d :: u

/-- The position an array of shape `s` is read at when a larger array is read at `i`: axes it does
not have are dropped, axes of size one are read at zero. -/
def clip : List ℕ → List ℕ → List ℕ
  | [], _ => []
  | d :: s, i => (if d = 1 then 0 else i.headD 0) :: clip s i.tail

/-- `arr s g`: an array of shape `s` with the entries `g` (positions list the last axis first).
`err`: `ValueError` was raised. -/
inductive Nd (α : Type)
  | arr (s : List ℕ) (g : List ℕ → α)
  | err

namespace Nd

variable {α : Type}

/-- An operator on arrays. -/
def map2 (f : α → α → α) : Nd α → Nd α → Nd α
  | arr s g, arr t h =>
    match bshape s t with
    | some u => arr u fun i => f (g (clip s i)) (h (clip t i))
    | none => err
  | _, _ => err

/-- A function on an array. -/
def map1 (f : α → α) : Nd α → Nd α
  | arr s g => arr s fun i => f (g i)
  | err => err

/-- A Python number. -/
def num (a : α) : Nd α := arr [] fun _ => a

/-- A one dimensional array. -/
def ofList [Inhabited α] (l : List α) : Nd α := arr [l.length] fun i => l.getD (i.headD 0) default

instance instPyNum [PyNum α] : PyNum (Nd α) where
  add := map2 (· + ·)
  sub := map2 (· - ·)
  mul := map2 (· * ·)
  div := map2 (· / ·)
  neg := map1 (- ·)
  nat n := num (PyNum.nat n)
  sci m s e := num (PyNum.sci m s e)
  inv := map1 PyNum.inv
  npow x n := map1 (· ** n) x
  rpow := map2 (· **. ·)
  sqrt := map1 PyNum.sqrt
  exp := map1 PyNum.exp
  log := map1 PyNum.log
  sin := map1 PyNum.sin
  cos := map1 PyNum.cos
  tan := map1 PyNum.tan
  arcsin := map1 PyNum.arcsin
  arccos := map1 PyNum.arccos
  arctan := map1 PyNum.arctan
  cosh := map1 PyNum.cosh
  pi := num PyNum.pi
  lt _ _ := false
  le _ _ := false
  eq _ _ := false
  store _ x := x

/-- The shape of the result, `none` when `ValueError` was raised. -/
def shape : Nd α → Option (List ℕ)
  | arr s _ => some s
  | err => none

/-- The entry that takes part at position `i` of a larger array. -/
def read (x : Nd Fl) (i : List ℕ) : Fl :=
  match x with
  | arr s g => g (clip s i)
  | err => .bad

/-! ### Shapes -/

theorem clip_length (s i : List ℕ) : (clip s i).length = s.length := by
  induction s generalizing i with
  | nil => rfl
  | cons d s ih => rw [clip, List.length_cons, ih, List.length_cons]

theorem clip_clip_left {s t u : List ℕ} (h : bshape s t = some u) (i : List ℕ) :
    clip s (clip u i) = clip s i := by
  induction s generalizing t u i with
  | nil => rfl
  | cons a s ih =>
    cases t with
    | nil =>
      obtain rfl : a :: s = u := Option.some.inj h
      have ih' := ih (t := []) (u := s) (by cases s <;> rfl) i.tail
      rw [clip, clip, List.headD_cons, List.tail_cons, ih']
      split <;> rfl
    | cons b t =>
      rw [bshape] at h
      obtain ⟨d, hd, h⟩ := Option.bind_eq_some_iff.mp h
      obtain ⟨v, hv, h⟩ := Option.bind_eq_some_iff.mp h
      obtain rfl : d :: v = u := Option.some.inj h
      rw [clip, clip, clip, List.headD_cons, List.tail_cons, ih hv]
      congr 1
      unfold bdim at hd
      split_ifs at hd with h1 h2 h3 <;> cases hd <;> split_ifs <;> simp_all

theorem bdim_comm (a b : ℕ) : bdim a b = bdim b a := by
  unfold bdim; split_ifs <;> simp_all

theorem bdim_self (a : ℕ) : bdim a a = some a := if_pos rfl

theorem bdim_assoc (a b c : ℕ) :
    ((bdim a b).bind fun d => bdim d c) = (bdim b c).bind fun d => bdim a d := by
  unfold bdim; split_ifs <;> simp_all

theorem bshape_nil (s : List ℕ) : bshape s [] = some s := by cases s <;> rfl

theorem bshape_comm (s t : List ℕ) : bshape s t = bshape t s := by
  induction s generalizing t with
  | nil => rw [bshape_nil]; rfl
  | cons a s ih =>
    cases t with
    | nil => rfl
    | cons b t => rw [bshape, bshape, bdim_comm, ih]

theorem bshape_self (s : List ℕ) : bshape s s = some s := by
  induction s with
  | nil => rfl
  | cons a s ih => rw [bshape, bdim_self, ih]; rfl

theorem clip_clip_right {s t u : List ℕ} (h : bshape s t = some u) (i : List ℕ) :
    clip t (clip u i) = clip t i := clip_clip_left (bshape_comm s t ▸ h) i

theorem bshape_assoc (s t u : List ℕ) :
    ((bshape s t).bind fun v => bshape v u) = (bshape t u).bind fun v => bshape s v := by
  induction s generalizing t u with
  | nil => cases h : bshape t u <;> simp [bshape, h]
  | cons a s ih =>
    cases t with
    | nil => simp [bshape]
    | cons b t =>
      cases u with
      | nil => simp [bshape_nil]
      | cons c u =>
        have e1 : ((bshape (a :: s) (b :: t)).bind fun v => bshape v (c :: u))
            = ((bdim a b).bind fun d => bdim d c).bind fun d =>
              ((bshape s t).bind fun v => bshape v u).bind fun v => some (d :: v) := by
          cases h1 : bdim a b with
          | none => simp [bshape, h1]
          | some d =>
            cases h2 : bshape s t with
            | none => simp [bshape, h1, h2]
            | some v => simp [bshape, h1, h2]
        have e2 : ((bshape (b :: t) (c :: u)).bind fun v => bshape (a :: s) v)
            = ((bdim b c).bind fun d => bdim a d).bind fun d =>
              ((bshape t u).bind fun v => bshape s v).bind fun v => some (d :: v) := by
          cases h1 : bdim b c with
          | none => simp [bshape, h1]
          | some d =>
            cases h2 : bshape t u with
            | none => simp [bshape, h1, h2]
            | some v => simp [bshape, h1, h2]
        rw [e1, e2, bdim_assoc, ih]

/-- The shape of the result of an operator. -/
def bc (a b : Option (List ℕ)) : Option (List ℕ) := a.bind fun s => b.bind fun t => bshape s t

theorem bc_comm (a b : Option (List ℕ)) : bc a b = bc b a := by
  cases a <;> cases b <;> simp [bc, bshape_comm]
theorem bc_assoc (a b c : Option (List ℕ)) : bc (bc a b) c = bc a (bc b c) := by
  cases a with
  | none => rfl
  | some s =>
    cases b with
    | none => rfl
    | some t =>
      cases c with
      | none => simp [bc]
      | some u => exact bshape_assoc s t u
theorem bc_self (a : Option (List ℕ)) : bc a a = a := by
  cases a <;> simp [bc, bshape_self]
theorem bc_left_comm (a b c : Option (List ℕ)) : bc a (bc b c) = bc b (bc a c) := by
  rw [← bc_assoc, bc_comm a b, bc_assoc]
theorem bc_left_self (a b : Option (List ℕ)) : bc a (bc a b) = bc a b := by
  rw [← bc_assoc, bc_self]
@[nd] theorem bc_nil (a : Option (List ℕ)) : bc a (some []) = a := by
  cases a <;> simp [bc, bshape_nil]
@[nd] theorem nil_bc (a : Option (List ℕ)) : bc (some []) a = a := by rw [bc_comm, bc_nil]
theorem bc_none (a : Option (List ℕ)) : bc a none = none := by cases a <;> rfl
theorem none_bc (a : Option (List ℕ)) : bc none a = none := rfl

theorem shape_map2 (f : α → α → α) (x y : Nd α) : (map2 f x y).shape = bc x.shape y.shape := by
  cases x with
  | err => rfl
  | arr s g =>
    cases y with
    | err => rfl
    | arr t h =>
      show (match bshape s t with | some u => arr u _ | none => err).shape = bshape s t
      cases bshape s t <;> rfl
theorem shape_map1 (f : α → α) (x : Nd α) : (map1 f x).shape = x.shape := by cases x <;> rfl

section
variable [PyNum α] (x y : Nd α)
@[nd] theorem shape_add : (x + y).shape = bc x.shape y.shape := shape_map2 _ x y
@[nd] theorem shape_sub : (x - y).shape = bc x.shape y.shape := shape_map2 _ x y
@[nd] theorem shape_mul : (x * y).shape = bc x.shape y.shape := shape_map2 _ x y
@[nd] theorem shape_div : (x / y).shape = bc x.shape y.shape := shape_map2 _ x y
@[nd] theorem shape_rpow : (x **. y).shape = bc x.shape y.shape := shape_map2 _ x y
@[nd] theorem shape_neg : (-x).shape = x.shape := shape_map1 _ x
@[nd] theorem shape_inv : (PyNum.inv x).shape = x.shape := shape_map1 _ x
@[nd] theorem shape_npow (n : ℕ) : (x ** n).shape = x.shape := shape_map1 _ x
@[nd] theorem shape_sqrt : (PyNum.sqrt x).shape = x.shape := shape_map1 _ x
@[nd] theorem shape_exp : (PyNum.exp x).shape = x.shape := shape_map1 _ x
@[nd] theorem shape_log : (PyNum.log x).shape = x.shape := shape_map1 _ x
@[nd] theorem shape_sin : (PyNum.sin x).shape = x.shape := shape_map1 _ x
@[nd] theorem shape_cos : (PyNum.cos x).shape = x.shape := shape_map1 _ x
@[nd] theorem shape_tan : (PyNum.tan x).shape = x.shape := shape_map1 _ x
@[nd] theorem shape_arcsin : (PyNum.arcsin x).shape = x.shape := shape_map1 _ x
@[nd] theorem shape_arccos : (PyNum.arccos x).shape = x.shape := shape_map1 _ x
@[nd] theorem shape_arctan : (PyNum.arctan x).shape = x.shape := shape_map1 _ x
@[nd] theorem shape_cosh : (PyNum.cosh x).shape = x.shape := shape_map1 _ x
@[nd] theorem shape_pi : (PyNum.pi : Nd α).shape = some [] := rfl
@[nd] theorem shape_nat (n : ℕ) : (PyNum.nat n : Nd α).shape = some [] := rfl
@[nd] theorem shape_ofNat (n : ℕ) [n.AtLeastTwo] : (ofNat(n) : Nd α).shape = some [] := rfl
@[nd] theorem shape_zero : (0 : Nd α).shape = some [] := rfl
@[nd] theorem shape_one : (1 : Nd α).shape = some [] := rfl
@[nd] theorem shape_sci (m s e) : (OfScientific.ofScientific m s e : Nd α).shape = some [] := rfl
@[nd] theorem shape_deg2rad : (deg2rad x).shape = x.shape := by simp only [deg2rad, nd]
end
@[nd] theorem shape_num (a : α) : (num a).shape = some [] := rfl
@[nd] theorem shape_ofList [Inhabited α] (l : List α) : (ofList l).shape = some [l.length] := rfl

/-! ### Entries -/

/-- The array can be extended to the shape `u`. -/
def Fits (u : Option (List ℕ)) (x : Nd α) : Prop := bc x.shape u = u ∧ u ≠ none

theorem bc_absorb {a b u : Option (List ℕ)} : bc (bc a b) u = u ↔ bc a u = u ∧ bc b u = u := by
  constructor
  · intro h
    constructor
    · rw [← h, bc_assoc, bc_left_self]
    · rw [← h, bc_assoc, bc_left_comm b a, bc_left_self]
  · rintro ⟨h1, h2⟩
    rw [bc_assoc, h2, h1]

theorem fits_map2 (f : α → α → α) {u : Option (List ℕ)} {x y : Nd α} :
    Fits u (map2 f x y) ↔ Fits u x ∧ Fits u y := by
  unfold Fits
  rw [shape_map2, bc_absorb]
  tauto

theorem fits_map1 (f : α → α) {u : Option (List ℕ)} {x : Nd α} :
    Fits u (map1 f x) ↔ Fits u x := by
  unfold Fits
  rw [shape_map1]

theorem read_map2 {f : Fl → Fl → Fl} {u : Option (List ℕ)} {x y : Nd Fl} (hx : Fits u x)
    (hy : Fits u y) (i : List ℕ) : (map2 f x y).read i = f (x.read i) (y.read i) := by
  have h : bc x.shape y.shape ≠ none := by
    intro h
    have := (bc_absorb.mpr ⟨hx.1, hy.1⟩)
    rw [h] at this
    exact hx.2 this.symm
  cases x with
  | err => exact absurd rfl h
  | arr s g =>
    cases y with
    | err => exact absurd rfl h
    | arr t k =>
      obtain ⟨u, hu⟩ := Option.ne_none_iff_exists'.mp h
      have hu : bshape s t = some u := hu
      have e : map2 f (arr s g) (arr t k) = arr u fun i => f (g (clip s i)) (k (clip t i)) := by
        show (match bshape s t with | some u => arr u _ | none => err) = _
        rw [hu]
      rw [e]
      show f (g (clip s (clip u i))) (k (clip t (clip u i))) = _
      rw [clip_clip_left hu, clip_clip_right hu]
      rfl

theorem read_map1 {f : Fl → Fl} (hf : f .bad = .bad) (x : Nd Fl) (i : List ℕ) :
    (map1 f x).read i = f (x.read i) := by
  cases x with
  | err => exact hf.symm
  | arr s g => rfl

section
variable {x y : Nd Fl} {u : Option (List ℕ)}

@[nd] theorem fits_add : Fits u (x + y) ↔ Fits u x ∧ Fits u y := fits_map2 _
@[nd] theorem fits_sub : Fits u (x - y) ↔ Fits u x ∧ Fits u y := fits_map2 _
@[nd] theorem fits_mul : Fits u (x * y) ↔ Fits u x ∧ Fits u y := fits_map2 _
@[nd] theorem fits_div : Fits u (x / y) ↔ Fits u x ∧ Fits u y := fits_map2 _
@[nd] theorem fits_rpow : Fits u (x **. y) ↔ Fits u x ∧ Fits u y := fits_map2 _
@[nd] theorem fits_neg : Fits u (-x) ↔ Fits u x := fits_map1 _
@[nd] theorem fits_inv : Fits u (PyNum.inv x) ↔ Fits u x := fits_map1 _
@[nd] theorem fits_npow (n : ℕ) : Fits u (x ** n) ↔ Fits u x := fits_map1 _
@[nd] theorem fits_sqrt : Fits u (PyNum.sqrt x) ↔ Fits u x := fits_map1 _
@[nd] theorem fits_exp : Fits u (PyNum.exp x) ↔ Fits u x := fits_map1 _
@[nd] theorem fits_log : Fits u (PyNum.log x) ↔ Fits u x := fits_map1 _
@[nd] theorem fits_sin : Fits u (PyNum.sin x) ↔ Fits u x := fits_map1 _
@[nd] theorem fits_cos : Fits u (PyNum.cos x) ↔ Fits u x := fits_map1 _
@[nd] theorem fits_tan : Fits u (PyNum.tan x) ↔ Fits u x := fits_map1 _
@[nd] theorem fits_arcsin : Fits u (PyNum.arcsin x) ↔ Fits u x := fits_map1 _
@[nd] theorem fits_arccos : Fits u (PyNum.arccos x) ↔ Fits u x := fits_map1 _
@[nd] theorem fits_arctan : Fits u (PyNum.arctan x) ↔ Fits u x := fits_map1 _
@[nd] theorem fits_cosh : Fits u (PyNum.cosh x) ↔ Fits u x := fits_map1 _
@[nd] theorem fits_deg2rad : Fits u (deg2rad x) ↔ Fits u x := by
  unfold Fits; rw [shape_deg2rad]

section
variable (hu : u ≠ none)
include hu
theorem fits_num (a : Fl) : Fits u (num a) := ⟨nil_bc u, hu⟩
theorem fits_pi : Fits u (PyNum.pi : Nd Fl) := ⟨nil_bc u, hu⟩
theorem fits_nat (n : ℕ) : Fits u (PyNum.nat n : Nd Fl) := ⟨nil_bc u, hu⟩
theorem fits_ofNat (n : ℕ) [n.AtLeastTwo] : Fits u (ofNat(n) : Nd Fl) := ⟨nil_bc u, hu⟩
theorem fits_zero : Fits u (0 : Nd Fl) := ⟨nil_bc u, hu⟩
theorem fits_one : Fits u (1 : Nd Fl) := ⟨nil_bc u, hu⟩
theorem fits_sci (m s e) : Fits u (OfScientific.ofScientific m s e : Nd Fl) := ⟨nil_bc u, hu⟩
end

variable (hx : Fits u x) (hy : Fits u y) (i : List ℕ)
include hx hy
theorem read_add : (x + y).read i = x.read i + y.read i := read_map2 hx hy i
theorem read_sub : (x - y).read i = x.read i - y.read i := read_map2 hx hy i
theorem read_mul : (x * y).read i = x.read i * y.read i := read_map2 hx hy i
theorem read_div : (x / y).read i = x.read i / y.read i := read_map2 hx hy i
theorem read_rpow : (x **. y).read i = x.read i **. y.read i := read_map2 hx hy i
end

section
variable (x : Nd Fl) (i : List ℕ)
@[nd] theorem read_neg : (-x).read i = -x.read i := read_map1 rfl x i
@[nd] theorem read_inv : (PyNum.inv x).read i = PyNum.inv (x.read i) := read_map1 rfl x i
@[nd] theorem read_npow (n : ℕ) : (x ** n).read i = x.read i ** n := read_map1 rfl x i
@[nd] theorem read_sqrt : (PyNum.sqrt x).read i = PyNum.sqrt (x.read i) := read_map1 rfl x i
@[nd] theorem read_exp : (PyNum.exp x).read i = PyNum.exp (x.read i) := read_map1 rfl x i
@[nd] theorem read_log : (PyNum.log x).read i = PyNum.log (x.read i) := read_map1 rfl x i
@[nd] theorem read_sin : (PyNum.sin x).read i = PyNum.sin (x.read i) := read_map1 rfl x i
@[nd] theorem read_cos : (PyNum.cos x).read i = PyNum.cos (x.read i) := read_map1 rfl x i
@[nd] theorem read_tan : (PyNum.tan x).read i = PyNum.tan (x.read i) := read_map1 rfl x i
@[nd] theorem read_arcsin : (PyNum.arcsin x).read i = PyNum.arcsin (x.read i) := read_map1 rfl x i
@[nd] theorem read_arccos : (PyNum.arccos x).read i = PyNum.arccos (x.read i) := read_map1 rfl x i
@[nd] theorem read_arctan : (PyNum.arctan x).read i = PyNum.arctan (x.read i) := read_map1 rfl x i
@[nd] theorem read_cosh : (PyNum.cosh x).read i = PyNum.cosh (x.read i) := read_map1 rfl x i
@[nd] theorem read_pi : (PyNum.pi : Nd Fl).read i = PyNum.pi := rfl
@[nd] theorem read_nat (n : ℕ) : (PyNum.nat n : Nd Fl).read i = PyNum.nat n := rfl
@[nd] theorem read_ofNat (n : ℕ) [n.AtLeastTwo] : (ofNat(n) : Nd Fl).read i = OfNat.ofNat n := rfl
@[nd] theorem read_zero : (0 : Nd Fl).read i = 0 := rfl
@[nd] theorem read_one : (1 : Nd Fl).read i = 1 := rfl
@[nd] theorem read_sci (m s e) : (OfScientific.ofScientific m s e : Nd Fl).read i
    = OfScientific.ofScientific m s e := rfl
@[nd] theorem read_deg2rad : (deg2rad x).read i = deg2rad (x.read i) := by
  cases x with
  | err => rfl
  | arr s g =>
    unfold deg2rad
    have hs : (arr s g).shape ≠ none := fun h => nomatch h
    have h : Fits (arr s g).shape (arr s g) := ⟨bc_self _, hs⟩
    have hp : Fits (arr s g).shape (PyNum.pi : Nd Fl) := fits_pi hs
    have hn : Fits (arr s g).shape (180 : Nd Fl) := fits_ofNat hs 180
    rw [read_mul h (fits_div.mpr ⟨hp, hn⟩), read_div hp hn]
    rfl
@[nd] theorem read_num (a : Fl) : (num a).read i = a := rfl
end

end Nd

end RockPhy
