import Verif.Props.Newaxis

/-!
# C102: the functions that turn logs into columns
-/

namespace RockPhy.Props

open Spec Nd Fl

/-! ### Columns -/

/-- A column: what a log becomes by `[:, np.newaxis]`. -/
def col (n : ℕ) (f : ℕ → Fl) : Nd Fl := arr [1, n] fun i => f (i.tail.headD 0)

theorem newaxis_vec (n : ℕ) (f : ℕ → Fl) : (vec n f).newaxis = .ok (col n f) := by
  show Except.ok (arr [1, n] _) = _
  congr 2
  funext i
  cases i <;> rfl

theorem newaxis_num (a : Fl) : (num a).newaxis = .error .TypeError := rfl

theorem isArray_vec (n : ℕ) (f : ℕ → Fl) : (vec n f).isArray = true := rfl

@[nd] theorem shape_vec (n : ℕ) (f : ℕ → Fl) : (vec n f).shape = some [n] := rfl
@[nd] theorem shape_col (n : ℕ) (f : ℕ → Fl) : (col n f).shape = some [1, n] := rfl

theorem read_col {n k : ℕ} (f : ℕ → Fl) (hk : k < n) (j : ℕ) : (col n f).read [j, k] = f k := by
  show f (if n = 1 then 0 else k) = f k
  split
  · congr 1; omega
  · rfl

theorem bc_vec_col (m n : ℕ) : bc (some [m]) (some [1, n]) = some [m, n] := by
  simp [bc, bshape, bdim_one]

theorem bdim_one' (m : ℕ) : bdim 1 m = some m := by rw [bdim_comm, bdim_one]

theorem bc_col_vec (m n : ℕ) : bc (some [1, n]) (some [m]) = some [m, n] := by
  rw [bc_comm, bc_vec_col]

theorem bc_table_col (m n : ℕ) : bc (some [m, n]) (some [1, n]) = some [m, n] := by
  simp [bc, bshape, bdim_one, bdim_self]

theorem bc_col_table (m n : ℕ) : bc (some [1, n]) (some [m, n]) = some [m, n] := by
  rw [bc_comm, bc_table_col]

theorem bc_vec_table (m n : ℕ) : bc (some [m]) (some [m, n]) = some [m, n] := by
  simp [bc, bshape, bdim_self]

/-! ### Aki-Richards -/

theorem Aki_elementwise (theta vp1 vp2 vs1 vs2 den1 den2 : Nd Fl) :
    Elementwise (AVO.Aki_Richards theta vp1 vp2 vs1 vs2 den1 den2).1
      [theta, vp1, vp2, vs1, vs2, den1, den2] (fun at_ => (AVO.Aki_Richards (at_ theta) (at_ vp1)
        (at_ vp2) (at_ vs1) (at_ vs2) (at_ den1) (at_ den2)).1) ∧
    Elementwise (AVO.Aki_Richards theta vp1 vp2 vs1 vs2 den1 den2).2.1
      [theta, vp1, vp2, vs1, vs2, den1, den2] (fun at_ => (AVO.Aki_Richards (at_ theta) (at_ vp1)
        (at_ vp2) (at_ vs1) (at_ vs2) (at_ den1) (at_ den2)).2.1) ∧
    Elementwise (AVO.Aki_Richards theta vp1 vp2 vs1 vs2 den1 den2).2.2.1
      [vp1, vp2, den1, den2] (fun at_ => (AVO.Aki_Richards (at_ theta) (at_ vp1)
        (at_ vp2) (at_ vs1) (at_ vs2) (at_ den1) (at_ den2)).2.2.1) ∧
    Elementwise (AVO.Aki_Richards theta vp1 vp2 vs1 vs2 den1 den2).2.2.2
      [vp1, vp2, vs1, vs2, den1, den2] (fun at_ => (AVO.Aki_Richards (at_ theta) (at_ vp1)
        (at_ vp2) (at_ vs1) (at_ vs2) (at_ den1) (at_ den2)).2.2.2) := by
  refine ⟨?_, ?_, ?_, ?_⟩ <;> nd_eval [AVO.Aki_Richards]

/-- `n` interfaces and `m` angles: the reflectivities are tables with one row for each interface and
one column for each angle, intercept and gradient are columns; every entry is the value for that
interface and that angle alone. -/
theorem C102_Aki_Richards_table (n m : ℕ) (theta vp1 vp2 vs1 vs2 den1 den2 : ℕ → Fl) :
    ∃ pp ps r0 g, AVO.Aki_Richards_array (vec m theta) (vec n vp1) (vec n vp2) (vec n vs1)
        (vec n vs2) (vec n den1) (vec n den2) = .ok (pp, ps, r0, g) ∧
      (let R := fun k j => AVO.Aki_Richards (theta j) (vp1 k) (vp2 k) (vs1 k) (vs2 k) (den1 k)
        (den2 k)
       IsTable pp n m (fun k j => (R k j).1) ∧ IsTable ps n m (fun k j => (R k j).2.1) ∧
       ∀ j, IsTable r0 n 1 (fun k _ => (R k j).2.2.1) ∧
         IsTable g n 1 (fun k _ => (R k j).2.2.2)) := by
  obtain ⟨e1, e2, e3, e4⟩ := Aki_elementwise (vec m theta) (col n vp1) (col n vp2) (col n vs1)
    (col n vs2) (col n den1) (col n den2)
  have hc : AVO.Aki_Richards_array (vec m theta) (vec n vp1) (vec n vp2) (vec n vs1)
      (vec n vs2) (vec n den1) (vec n den2) = .ok (AVO.Aki_Richards (vec m theta) (col n vp1)
        (col n vp2) (col n vs1) (col n vs2) (col n den1) (col n den2)) := by
    show (if (vec n vp1).isArray = true then _ else _) = _
    rw [if_pos (isArray_vec _ _)]
    simp only [newaxis_vec]
    rfl
  generalize AVO.Aki_Richards (vec m theta) (col n vp1) (col n vp2) (col n vs1) (col n vs2)
    (col n den1) (col n den2) = R at hc e1 e2 e3 e4
  obtain ⟨pp, ps, r0, g⟩ := R
  dsimp only at e1 e2 e3 e4
  refine ⟨pp, ps, r0, g, hc, ⟨?_, ?_⟩, ⟨?_, ?_⟩, fun j => ⟨⟨?_, ?_⟩, ?_, ?_⟩⟩
  · have := e1.1
    simpa only [List.map_cons, List.map_nil, bcs_cons, bcs_nil, nd, bc_self, bc_vec_col] using this
  · intro k hk j hj
    rw [e1.2]
    · simp only [read_vec _ hj, read_col _ hk]
    · rw [e1.1]
      simp [List.map_cons, List.map_nil, bcs_cons, bcs_nil, nd, bc_self, bc_vec_col]
  · have := e2.1
    simpa only [List.map_cons, List.map_nil, bcs_cons, bcs_nil, nd, bc_self, bc_vec_col] using this
  · intro k hk j hj
    rw [e2.2]
    · simp only [read_vec _ hj, read_col _ hk]
    · rw [e2.1]
      simp [List.map_cons, List.map_nil, bcs_cons, bcs_nil, nd, bc_self, bc_vec_col]
  · have := e3.1
    simpa only [List.map_cons, List.map_nil, bcs_cons, bcs_nil, nd, bc_self] using this
  · intro k hk j' _
    rw [e3.2]
    · simp only [read_col _ hk]; rfl
    · rw [e3.1]
      simp [List.map_cons, List.map_nil, bcs_cons, bcs_nil, nd, bc_self]
  · have := e4.1
    simpa only [List.map_cons, List.map_nil, bcs_cons, bcs_nil, nd, bc_self] using this
  · intro k hk j' _
    rw [e4.2]
    · simp only [read_col _ hk]; rfl
    · rw [e4.1]
      simp [List.map_cons, List.map_nil, bcs_cons, bcs_nil, nd, bc_self]

/-- One interface given by numbers and `m` angles: one dimensional reflectivities. -/
theorem C102_Aki_Richards_angles (m : ℕ) (theta : ℕ → Fl) (vp1 vp2 vs1 vs2 den1 den2 : Fl) :
    ∃ pp ps r0 g, AVO.Aki_Richards_array (vec m theta) (num vp1) (num vp2) (num vs1)
        (num vs2) (num den1) (num den2) = .ok (pp, ps, r0, g) ∧
      IsVec pp m (fun j => (AVO.Aki_Richards (theta j) vp1 vp2 vs1 vs2 den1 den2).1) ∧
      IsVec ps m (fun j => (AVO.Aki_Richards (theta j) vp1 vp2 vs1 vs2 den1 den2).2.1) ∧
      r0.shape = some [] ∧ g.shape = some [] ∧
      ∀ t, r0.read [] = (AVO.Aki_Richards t vp1 vp2 vs1 vs2 den1 den2).2.2.1 ∧
        g.read [] = (AVO.Aki_Richards t vp1 vp2 vs1 vs2 den1 den2).2.2.2 := by
  obtain ⟨e1, e2, e3, e4⟩ := Aki_elementwise (vec m theta) (num vp1) (num vp2) (num vs1)
    (num vs2) (num den1) (num den2)
  have h1 := C102_logs e1 m (by simp) ⟨theta, by simp⟩
  have h2 := C102_logs e2 m (by simp) ⟨theta, by simp⟩
  refine ⟨(AVO.Aki_Richards (vec m theta) (num vp1) (num vp2) (num vs1) (num vs2) (num den1)
    (num den2)).1, _, _, _, rfl, ⟨h1.1, fun k hk => (h1.2 k hk).trans ?_⟩,
    ⟨h2.1, fun k hk => (h2.2 k hk).trans ?_⟩, e3.1, e4.1, fun t => ⟨?_, ?_⟩⟩
  · simp only [read_vec _ hk, read_num]
  · simp only [read_vec _ hk, read_num]
  · exact e3.2 (by rw [e3.1]; exact fun h => nomatch h) []
  · exact e4.2 (by rw [e4.1]; exact fun h => nomatch h) []

/-- When the first velocity is a log, each of the other five properties must be one: a number
raises `TypeError`. -/
theorem C102_Aki_Richards_number (n : ℕ) (theta vp2 vs1 vs2 den1 den2 : Nd Fl) (vp1 : ℕ → Fl)
    (h : ∃ a, num a ∈ [vp2, vs1, vs2, den1, den2]) (he : err ∉ [vp2, vs1, vs2, den1, den2]) :
    AVO.Aki_Richards_array theta (vec n vp1) vp2 vs1 vs2 den1 den2 = .error .TypeError := by
  have key : ∀ x : Nd Fl, x ≠ err → x.newaxis = .error .TypeError ∧ x.shape = some [] ∨
      ∃ y, x.newaxis = .ok y ∧ x.shape ≠ some [] := by
    intro x hx
    cases x with
    | err => exact absurd rfl hx
    | arr s g =>
      cases s with
      | nil => exact Or.inl ⟨rfl, rfl⟩
      | cons d s => exact Or.inr ⟨_, rfl, by simp [shape]⟩
  simp only [List.mem_cons, List.not_mem_nil, or_false, not_or] at he
  obtain ⟨n2, n3, n4, n5, n6⟩ := he
  show (if (vec n vp1).isArray = true then _ else _) = _
  rw [if_pos (isArray_vec _ _), newaxis_vec]
  rcases key vp2 (Ne.symm n2) with ⟨k2, -⟩ | ⟨y2, k2, s2⟩
  · rw [k2]; rfl
  rcases key vs1 (Ne.symm n3) with ⟨k3, -⟩ | ⟨y3, k3, s3⟩
  · rw [k2, k3]; rfl
  rcases key vs2 (Ne.symm n4) with ⟨k4, -⟩ | ⟨y4, k4, s4⟩
  · rw [k2, k3, k4]; rfl
  rcases key den1 (Ne.symm n5) with ⟨k5, -⟩ | ⟨y5, k5, s5⟩
  · rw [k2, k3, k4, k5]; rfl
  rcases key den2 (Ne.symm n6) with ⟨k6, -⟩ | ⟨y6, k6, s6⟩
  · rw [k2, k3, k4, k5, k6]; rfl
  obtain ⟨a, ha⟩ := h
  simp only [List.mem_cons, List.not_mem_nil, or_false] at ha
  rcases ha with rfl | rfl | rfl | rfl | rfl
  · exact absurd rfl s2
  · exact absurd rfl s3
  · exact absurd rfl s4
  · exact absurd rfl s5
  · exact absurd rfl s6

/-- When the first velocity is a number and the others are logs of `n` samples, no table is made:
with `n` angles, angle `k` is used for interface `k`; with another number of angles `ValueError` is
raised (unless `n = 1` or there is one angle). -/
theorem C102_Aki_Richards_first_number (n m : ℕ) (theta vp2 vs1 vs2 den1 den2 : ℕ → Fl)
    (vp1 : Fl) :
    ∃ pp ps r0 g, AVO.Aki_Richards_array (vec m theta) (num vp1) (vec n vp2) (vec n vs1)
        (vec n vs2) (vec n den1) (vec n den2) = .ok (pp, ps, r0, g) ∧
      (m = n → IsVec pp n fun k => (AVO.Aki_Richards (theta k) vp1 (vp2 k) (vs1 k) (vs2 k)
        (den1 k) (den2 k)).1) ∧
      (m ≠ n → m ≠ 1 → n ≠ 1 → pp = err) := by
  obtain ⟨e1, -⟩ := Aki_elementwise (vec m theta) (num vp1) (vec n vp2) (vec n vs1)
    (vec n vs2) (vec n den1) (vec n den2)
  refine ⟨_, _, _, _, rfl, fun h => ?_, fun h1 h2 h3 => ?_⟩
  · subst h
    have h := C102_logs e1 m (by simp) ⟨theta, by simp⟩
    refine ⟨h.1, fun k hk => (h.2 k hk).trans ?_⟩
    simp only [read_vec _ hk, read_num]
  · exact C102_mismatch e1 (n := m) (m := n) (f := theta) (g := vp2) (by simp) (by simp) h2 h3 h1

/-! ### Sections -/

/-- A sheet: what a section becomes by `[:, np.newaxis]`. -/
def sheet (n m : ℕ) (f : ℕ → ℕ → Fl) : Nd Fl :=
  arr [m, 1, n] fun i => f (i.tail.tail.headD 0) (i.headD 0)

theorem newaxis_sec (n m : ℕ) (f : ℕ → ℕ → Fl) : (sec n m f).newaxis = .ok (sheet n m f) := by
  show Except.ok (arr [m, 1, n] _) = _
  congr 2
  funext i
  match i with
  | [] => rfl
  | [_] => rfl
  | _ :: _ :: _ => rfl

@[nd] theorem shape_sheet (n m : ℕ) (f : ℕ → ℕ → Fl) : (sheet n m f).shape = some [m, 1, n] := rfl

theorem read_sheet {n m k j : ℕ} (f : ℕ → ℕ → Fl) (hk : k < n) (hj : j < m) :
    (sheet n m f).read [j, 0, k] = f k j := by
  show f (if n = 1 then 0 else k) (if m = 1 then 0 else j) = f k j
  congr 1
  · split <;> omega
  · split <;> omega

theorem bc_vec_sheet (p m n : ℕ) :
    bc (some [p]) (some [m, 1, n]) = (bdim p m).map fun d => [d, 1, n] := by
  cases h : bdim p m <;> simp [bc, bshape, h]

theorem Aki_sections {n m : ℕ} (theta : Nd Fl) (vp1 vp2 vs1 vs2 den1 den2 : ℕ → ℕ → Fl) :
    AVO.Aki_Richards_array theta (sec n m vp1) (sec n m vp2) (sec n m vs1) (sec n m vs2)
      (sec n m den1) (sec n m den2) = .ok (AVO.Aki_Richards theta (sheet n m vp1) (sheet n m vp2)
        (sheet n m vs1) (sheet n m vs2) (sheet n m den1) (sheet n m den2)) := by
  show (if (sec n m vp1).isArray = true then _ else _) = _
  rw [if_pos (show (sec n m vp1).isArray = true from rfl)]
  simp only [newaxis_sec]
  rfl

/-- Sections of `n` by `m` interfaces and `p` angles do not give every interface at every angle.
One angle gives arrays of `n`, 1 and `m` entries; `m` angles give arrays of the same shape in which
column `j` is evaluated at angle `j`; any other number of angles raises `ValueError`. -/
theorem C102_Aki_Richards_sections (n m p : ℕ) (theta : ℕ → Fl) (t : Fl)
    (vp1 vp2 vs1 vs2 den1 den2 : ℕ → ℕ → Fl) :
    let R := fun t k j => AVO.Aki_Richards t (vp1 k j) (vp2 k j) (vs1 k j) (vs2 k j) (den1 k j)
      (den2 k j)
    ∃ one many : Nd Fl × Nd Fl × Nd Fl × Nd Fl,
      AVO.Aki_Richards_array (num t) (sec n m vp1) (sec n m vp2) (sec n m vs1) (sec n m vs2)
        (sec n m den1) (sec n m den2) = .ok one ∧
      AVO.Aki_Richards_array (vec p theta) (sec n m vp1) (sec n m vp2) (sec n m vs1) (sec n m vs2)
        (sec n m den1) (sec n m den2) = .ok many ∧
      IsSheet one.1 n m (fun k j => (R t k j).1) ∧ IsSheet one.2.1 n m (fun k j => (R t k j).2.1) ∧
      IsSheet one.2.2.1 n m (fun k j => (R t k j).2.2.1) ∧
      IsSheet one.2.2.2 n m (fun k j => (R t k j).2.2.2) ∧
      (p = m → IsSheet many.1 n m (fun k j => (R (theta j) k j).1) ∧
        IsSheet many.2.1 n m (fun k j => (R (theta j) k j).2.1)) ∧
      (p ≠ m → p ≠ 1 → m ≠ 1 → many.1 = err ∧ many.2.1 = err) := by
  intro R
  refine ⟨_, _, Aki_sections .., Aki_sections .., ?_⟩
  obtain ⟨e1, e2, e3, e4⟩ := Aki_elementwise (num t) (sheet n m vp1) (sheet n m vp2)
    (sheet n m vs1) (sheet n m vs2) (sheet n m den1) (sheet n m den2)
  obtain ⟨f1, f2, -, -⟩ := Aki_elementwise (vec p theta) (sheet n m vp1) (sheet n m vp2)
    (sheet n m vs1) (sheet n m vs2) (sheet n m den1) (sheet n m den2)
  have hs : ∀ {r : Nd Fl} {u v}, Elementwise r u v → bcs (u.map shape) = some [m, 1, n] →
      ∀ g : ℕ → ℕ → Fl, (∀ k < n, ∀ j < m, (v fun x => x.read [j, 0, k]) = g k j) →
      IsSheet r n m g := fun e hb g hg =>
    ⟨e.1.trans hb, fun k hk j hj => (e.2 (by rw [e.1, hb]; simp) _).trans (hg k hk j hj)⟩
  have shp : bcs (List.map shape [num t, sheet n m vp1, sheet n m vp2, sheet n m vs1,
      sheet n m vs2, sheet n m den1, sheet n m den2]) = some [m, 1, n] := by
    simp only [List.map_cons, List.map_nil, bcs_cons, bcs_nil, nd, bc_self]
  have shv : bcs (List.map shape [vec p theta, sheet n m vp1, sheet n m vp2, sheet n m vs1,
      sheet n m vs2, sheet n m den1, sheet n m den2]) = (bdim p m).map fun d => [d, 1, n] := by
    simp only [List.map_cons, List.map_nil, bcs_cons, bcs_nil, nd, bc_self, bc_vec_sheet]
  refine ⟨hs e1 shp _ fun k hk j hj => ?_, hs e2 shp _ fun k hk j hj => ?_,
    hs e3 ?_ _ fun k hk j hj => ?_, hs e4 ?_ _ fun k hk j hj => ?_, fun h => ?_, fun h1 h2 h3 => ?_⟩
  · simp only [read_sheet _ hk hj, read_num]; rfl
  · simp only [read_sheet _ hk hj, read_num]; rfl
  · simp only [List.map_cons, List.map_nil, bcs_cons, bcs_nil, nd, bc_self]
  · simp only [read_sheet _ hk hj]; rfl
  · simp only [List.map_cons, List.map_nil, bcs_cons, bcs_nil, nd, bc_self]
  · simp only [read_sheet _ hk hj]; rfl
  · subst h
    rw [bdim_self] at shv
    exact ⟨hs f1 shv _ fun k hk j hj => by simp only [read_sheet _ hk hj, read_vec _ hj]; rfl,
      hs f2 shv _ fun k hk j hj => by simp only [read_sheet _ hk hj, read_vec _ hj]; rfl⟩
  · have hb : bdim p m = none := by simp [bdim, h1, h2, h3]
    rw [hb] at shv
    have hn : ∀ r : Nd Fl, r.shape = none → r = err := fun r hr => by
      cases r with
      | err => rfl
      | arr s g => cases hr
    exact ⟨hn _ (f1.1.trans shv), hn _ (f2.1.trans shv)⟩

/-- A section of four by three interfaces and two angles. -/
example (f : ℕ → ℕ → Fl) : ∃ ps r0 g, AVO.Aki_Richards_array (vec 2 fun j => .fin (10 * j)) (sec 4 3 f)
    (sec 4 3 f) (sec 4 3 f) (sec 4 3 f) (sec 4 3 f) (sec 4 3 f) = .ok (err, ps, r0, g) := by
  obtain ⟨-, ⟨pp, ps, r0, g⟩, -, h, -, -, -, -, -, he⟩ := C102_Aki_Richards_sections 4 3 2
    (fun j => .fin (10 * j)) 0 f f f f f f
  obtain rfl := (he (by decide) (by decide) (by decide)).1
  exact ⟨ps, r0, g, h⟩

/-- Three interfaces and two angles. -/
example : ∃ pp ps r0 g, AVO.Aki_Richards_array (vec 2 fun j => .fin (10 * j))
      (vec 3 fun k => .fin (2000 + k)) (vec 3 fun _ => .fin 2500) (vec 3 fun _ => .fin 1000)
      (vec 3 fun _ => .fin 1200) (vec 3 fun _ => .fin 2.2) (vec 3 fun _ => .fin 2.3)
      = .ok (pp, ps, r0, g) ∧ pp.shape = some [2, 3] := by
  obtain ⟨pp, ps, r0, g, h, h1, -⟩ := C102_Aki_Richards_table 3 2 (fun j => .fin (10 * j))
    (fun k => .fin (2000 + k)) (fun _ => .fin 2500) (fun _ => .fin 1000)
    (fun _ => .fin 1200) (fun _ => .fin 2.2) (fun _ => .fin 2.3)
  exact ⟨pp, ps, r0, g, h, h1.1⟩

/-- A density given once for three interfaces. -/
example : AVO.Aki_Richards_array (num (.fin 10))
      (vec 3 fun k => .fin (2000 + k)) (vec 3 fun _ => .fin 2500) (vec 3 fun _ => .fin 1000)
      (vec 3 fun _ => .fin 1200) (num (.fin 2.2)) (num (.fin 2.3)) = .error .TypeError :=
  C102_Aki_Richards_number _ _ _ _ _ _ _ _ ⟨.fin 2.2, by simp⟩ (by simp [vec, num])

/-! ### Swiss cheese -/

theorem Swiss_elementwise (Ks Gs phi : Nd Fl) :
    Elementwise (EM.Swiss_cheese Ks Gs phi).1 [Ks, Gs, phi]
      (fun at_ => (EM.Swiss_cheese (at_ Ks) (at_ Gs) (at_ phi)).1) ∧
    Elementwise (EM.Swiss_cheese Ks Gs phi).2 [Ks, Gs, phi]
      (fun at_ => (EM.Swiss_cheese (at_ Ks) (at_ Gs) (at_ phi)).2) := by
  refine ⟨?_, ?_⟩ <;> nd_eval [EM.Swiss_cheese]

/-- `n` minerals and `m` porosities: a table of every mineral with every porosity. -/
theorem C102_Swiss_cheese_table (n m : ℕ) (Ks Gs phi : ℕ → Fl) :
    ∃ K G, EM.Swiss_cheese_array (vec n Ks) (vec n Gs) (vec m phi) = .ok (K, G) ∧
      IsTable K n m (fun k j => (EM.Swiss_cheese (Ks k) (Gs k) (phi j)).1) ∧
      IsTable G n m (fun k j => (EM.Swiss_cheese (Ks k) (Gs k) (phi j)).2) := by
  obtain ⟨e1, e2⟩ := Swiss_elementwise (col n Ks) (col n Gs) (vec m phi)
  have s1 := e1.1
  have s2 := e2.1
  simp only [List.map_cons, List.map_nil, bcs_cons, bcs_nil, nd, bc_col_vec, bc_col_table]
    at s1 s2
  have hc : EM.Swiss_cheese_array (vec n Ks) (vec n Gs) (vec m phi)
      = .ok (EM.Swiss_cheese (col n Ks) (col n Gs) (vec m phi)) := by
    show (if (vec n Ks).isArray = true then _ else _) = _
    rw [if_pos (isArray_vec _ _)]
    simp only [newaxis_vec]
    rfl
  generalize EM.Swiss_cheese (col n Ks) (col n Gs) (vec m phi) = R at hc e1 e2 s1 s2
  obtain ⟨K, G⟩ := R
  dsimp only at e1 e2
  refine ⟨K, G, hc, ⟨s1, fun k hk j hj => ?_⟩, s2, fun k hk j hj => ?_⟩
  · rw [e1.2 (by rw [s1]; exact fun h => nomatch h)]
    simp only [read_vec _ hj, read_col _ hk]
  · rw [e2.2 (by rw [s2]; exact fun h => nomatch h)]
    simp only [read_vec _ hj, read_col _ hk]

/-- Three logs of the same `n` samples do not give a log but a table of `n × n` entries; the values
of the log stand on its diagonal. -/
theorem C102_Swiss_cheese_logs (n : ℕ) (Ks Gs phi : ℕ → Fl) :
    ∃ K G, EM.Swiss_cheese_array (vec n Ks) (vec n Gs) (vec n phi) = .ok (K, G) ∧
      K.shape = some [n, n] ∧ G.shape = some [n, n] ∧
      ∀ k < n, K.read [k, k] = (EM.Swiss_cheese (Ks k) (Gs k) (phi k)).1 ∧
        G.read [k, k] = (EM.Swiss_cheese (Ks k) (Gs k) (phi k)).2 := by
  obtain ⟨K, G, h, h1, h2⟩ := C102_Swiss_cheese_table n n Ks Gs phi
  exact ⟨K, G, h, h1.1, h2.1, fun k hk => ⟨h1.2 k hk k hk, h2.2 k hk k hk⟩⟩

/-- One mineral given by numbers gives a log; a mineral given half as a log and half as a number is
a `TypeError`. -/
theorem C102_Swiss_cheese_numbers (m : ℕ) (phi : ℕ → Fl) (Ks Gs : Fl) :
    (∃ K G, EM.Swiss_cheese_array (num Ks) (num Gs) (vec m phi) = .ok (K, G) ∧
      IsVec K m (fun j => (EM.Swiss_cheese Ks Gs (phi j)).1) ∧
      IsVec G m (fun j => (EM.Swiss_cheese Ks Gs (phi j)).2)) ∧
    ∀ (n : ℕ) (Ks : ℕ → Fl) (phi : Nd Fl),
      EM.Swiss_cheese_array (vec n Ks) (num Gs) phi = .error .TypeError := by
  obtain ⟨e1, e2⟩ := Swiss_elementwise (num Ks) (num Gs) (vec m phi)
  have h1 := C102_logs e1 m (by simp) ⟨phi, by simp⟩
  have h2 := C102_logs e2 m (by simp) ⟨phi, by simp⟩
  refine ⟨⟨_, _, rfl, ⟨h1.1, fun k hk => (h1.2 k hk).trans ?_⟩,
    h2.1, fun k hk => (h2.2 k hk).trans ?_⟩, fun n Ks phi => ?_⟩
  · simp only [read_vec _ hk, read_num]
  · simp only [read_vec _ hk, read_num]
  · show (if (vec n Ks).isArray = true then _ else _) = _
    rw [if_pos (isArray_vec _ _)]
    simp only [newaxis_vec]
    rfl

/-! ### Elastic impedance -/

theorem EI_elementwise_norm (ipn isn mVp mVs mrho Vp Vs rho theta SP : Nd Fl) :
    Elementwise (AVO.EI_ref_entry ipn isn mVp mVs mrho true Vp Vs rho theta SP).1
      [ipn, mVp, mVs, mrho, Vp, Vs, rho, theta, SP]
      (fun at_ => (AVO.EI_ref_entry (at_ ipn) (at_ isn) (at_ mVp) (at_ mVs) (at_ mrho) true (at_ Vp)
        (at_ Vs) (at_ rho) (at_ theta) (at_ SP)).1) ∧
    Elementwise (AVO.EI_ref_entry ipn isn mVp mVs mrho true Vp Vs rho theta SP).2.1
      [ipn, mVs, mrho, Vs, rho, theta, SP]
      (fun at_ => (AVO.EI_ref_entry (at_ ipn) (at_ isn) (at_ mVp) (at_ mVs) (at_ mrho) true (at_ Vp)
        (at_ Vs) (at_ rho) (at_ theta) (at_ SP)).2.1) ∧
    Elementwise (AVO.EI_ref_entry ipn isn mVp mVs mrho true Vp Vs rho theta SP).2.2.1
      [isn, mVs, mrho, Vp, Vs, rho, theta, SP]
      (fun at_ => (AVO.EI_ref_entry (at_ ipn) (at_ isn) (at_ mVp) (at_ mVs) (at_ mrho) true (at_ Vp)
        (at_ Vs) (at_ rho) (at_ theta) (at_ SP)).2.2.1) ∧
    Elementwise (AVO.EI_ref_entry ipn isn mVp mVs mrho true Vp Vs rho theta SP).2.2.2.1
      [isn, mVs, mrho, Vp, Vs, rho, theta]
      (fun at_ => (AVO.EI_ref_entry (at_ ipn) (at_ isn) (at_ mVp) (at_ mVs) (at_ mrho) true (at_ Vp)
        (at_ Vs) (at_ rho) (at_ theta) (at_ SP)).2.2.2.1) ∧
    Elementwise (AVO.EI_ref_entry ipn isn mVp mVs mrho true Vp Vs rho theta SP).2.2.2.2
      [isn, mVs, mrho, Vp, Vs, rho, theta]
      (fun at_ => (AVO.EI_ref_entry (at_ ipn) (at_ isn) (at_ mVp) (at_ mVs) (at_ mrho) true (at_ Vp)
        (at_ Vs) (at_ rho) (at_ theta) (at_ SP)).2.2.2.2) := by
  refine ⟨?_, ?_, ?_, ?_, ?_⟩ <;> nd_eval [AVO.EI_ref_entry, Bool.false_eq_true]

theorem EI_elementwise_plain (ipn isn mVp mVs mrho Vp Vs rho theta SP : Nd Fl) :
    Elementwise (AVO.EI_ref_entry ipn isn mVp mVs mrho false Vp Vs rho theta SP).1
      [ipn, Vp, Vs, rho, theta, SP]
      (fun at_ => (AVO.EI_ref_entry (at_ ipn) (at_ isn) (at_ mVp) (at_ mVs) (at_ mrho) false (at_ Vp)
        (at_ Vs) (at_ rho) (at_ theta) (at_ SP)).1) ∧
    Elementwise (AVO.EI_ref_entry ipn isn mVp mVs mrho false Vp Vs rho theta SP).2.1
      [ipn, Vs, rho, theta, SP]
      (fun at_ => (AVO.EI_ref_entry (at_ ipn) (at_ isn) (at_ mVp) (at_ mVs) (at_ mrho) false (at_ Vp)
        (at_ Vs) (at_ rho) (at_ theta) (at_ SP)).2.1) ∧
    Elementwise (AVO.EI_ref_entry ipn isn mVp mVs mrho false Vp Vs rho theta SP).2.2.1
      [isn, Vp, Vs, rho, theta, SP]
      (fun at_ => (AVO.EI_ref_entry (at_ ipn) (at_ isn) (at_ mVp) (at_ mVs) (at_ mrho) false (at_ Vp)
        (at_ Vs) (at_ rho) (at_ theta) (at_ SP)).2.2.1) ∧
    Elementwise (AVO.EI_ref_entry ipn isn mVp mVs mrho false Vp Vs rho theta SP).2.2.2.1
      [isn, Vp, Vs, rho, theta]
      (fun at_ => (AVO.EI_ref_entry (at_ ipn) (at_ isn) (at_ mVp) (at_ mVs) (at_ mrho) false (at_ Vp)
        (at_ Vs) (at_ rho) (at_ theta) (at_ SP)).2.2.2.1) ∧
    Elementwise (AVO.EI_ref_entry ipn isn mVp mVs mrho false Vp Vs rho theta SP).2.2.2.2
      [isn, Vp, Vs, rho, theta]
      (fun at_ => (AVO.EI_ref_entry (at_ ipn) (at_ isn) (at_ mVp) (at_ mVs) (at_ mrho) false (at_ Vp)
        (at_ Vs) (at_ rho) (at_ theta) (at_ SP)).2.2.2.2) := by
  refine ⟨?_, ?_, ?_, ?_, ?_⟩ <;> nd_eval [AVO.EI_ref_entry, Bool.false_eq_true]

theorem Elementwise_table {r : Nd Fl} {args : List (Nd Fl)} {v : (Nd Fl → Fl) → Fl}
    (h : Elementwise r args v) {n m : ℕ} (hs : bcs (args.map shape) = some [m, n])
    {g : ℕ → ℕ → Fl} (hg : ∀ k < n, ∀ j < m, (v fun x => x.read [j, k]) = g k j) :
    IsTable r n m g := by
  refine ⟨h.1.trans hs, fun k hk j hj => (h.2 ?_ [j, k]).trans (hg k hk j hj)⟩
  rw [h.1, hs]
  exact fun h => nomatch h

theorem positions_col (n : ℕ) : positions [1, n] = (List.range n).map fun k => [0, k] := by
  simp [positions, List.flatMap_map]
  rw [List.map_eq_flatMap]

theorem mean_col (n : ℕ) (f : ℕ → Fl) :
    (col n f).mean = num (AVO.mean ((List.range n).map f)) := by
  show num (AVO.mean ((positions [1, n]).map _)) = _
  rw [positions_col, List.map_map]
  rfl

theorem EI_ref_list (n : ℕ) (Vp Vs rho : ℕ → Fl) (theta SP : Fl) (norm : Bool) {k : ℕ}
    (hk : k < n) (p : Fl × Fl × Fl × Fl × Fl → Fl) :
    ((AVO.EI_ref ((List.range n).map Vp) ((List.range n).map Vs) ((List.range n).map rho) theta SP
      norm).map p).getD k .bad
      = p (AVO.EI_ref_entry
        (if norm then AVO.mean ((List.range n).map Vp) * AVO.mean ((List.range n).map rho) else 1)
        (if norm then AVO.mean ((List.range n).map Vs) * AVO.mean ((List.range n).map rho) else 1)
        (AVO.mean ((List.range n).map Vp)) (AVO.mean ((List.range n).map Vs))
        (AVO.mean ((List.range n).map rho)) norm (Vp k) (Vs k) (rho k) theta SP) := by
  unfold AVO.EI_ref
  have h : (List.zip ((List.range n).map Vp) (List.zip ((List.range n).map Vs)
      ((List.range n).map rho)))[k]? = some (Vp k, Vs k, rho k) := by
    simp [hk]
  rw [List.getD_eq_getElem?_getD, List.getElem?_map, List.getElem?_map, h]
  rfl

/-- Logs of `n` samples and `m` angles: the five impedances are tables with one row for each sample
and one column for each angle, and the column of an angle is what the logs give for this angle. -/
theorem C102_EI_ref_table (n m : ℕ) (theta Vp Vs rho : ℕ → Fl) (SP : Fl) (norm : Bool) :
    ∃ pp psv svp svsv shsh, AVO.EI_ref_array (vec n Vp) (vec n Vs) (vec n rho) (vec m theta)
        (num SP) norm = .ok (pp, psv, svp, svsv, shsh) ∧
      (let E := fun j => AVO.EI_ref ((List.range n).map Vp) ((List.range n).map Vs)
        ((List.range n).map rho) (theta j) SP norm
       IsTable pp n m (fun k j => ((E j).map fun e => e.1).getD k .bad) ∧
       IsTable psv n m (fun k j => ((E j).map fun e => e.2.1).getD k .bad) ∧
       IsTable svp n m (fun k j => ((E j).map fun e => e.2.2.1).getD k .bad) ∧
       IsTable svsv n m (fun k j => ((E j).map fun e => e.2.2.2.1).getD k .bad) ∧
       IsTable shsh n m (fun k j => ((E j).map fun e => e.2.2.2.2).getD k .bad)) := by
  have hc : AVO.EI_ref_array (vec n Vp) (vec n Vs) (vec n rho) (vec m theta) (num SP) norm
      = .ok (AVO.EI_ref_array_core (col n Vp) (col n Vs) (col n rho) (vec m theta) (num SP)
        norm) := by
    show (if (vec n Vp).isArray = true then _ else _) = _
    rw [if_pos (isArray_vec _ _)]
    simp only [newaxis_vec]
    rfl
  simp only [AVO.EI_ref_array_core, mean_col] at hc
  generalize hip : (if norm = true then num (AVO.mean ((List.range n).map Vp))
    * num (AVO.mean ((List.range n).map rho)) else 1 : Nd Fl) = ip at hc
  generalize his : (if norm = true then num (AVO.mean ((List.range n).map Vs))
    * num (AVO.mean ((List.range n).map rho)) else 1 : Nd Fl) = is at hc
  have sip : ip.shape = some [] := by rw [← hip]; split <;> rfl
  have sis : is.shape = some [] := by rw [← his]; split <;> rfl
  have rip : ∀ i, ip.read i = if norm then AVO.mean ((List.range n).map Vp)
      * AVO.mean ((List.range n).map rho) else 1 := by
    intro i; rw [← hip]; cases norm <;> rfl
  have ris : ∀ i, is.read i = if norm then AVO.mean ((List.range n).map Vs)
      * AVO.mean ((List.range n).map rho) else 1 := by
    intro i; rw [← his]; cases norm <;> rfl
  refine ⟨_, _, _, _, _, hc, ?_⟩
  intro E
  cases norm
  · obtain ⟨e1, e2, e3, e4, e5⟩ := EI_elementwise_plain ip is
      (num (AVO.mean ((List.range n).map Vp))) (num (AVO.mean ((List.range n).map Vs)))
      (num (AVO.mean ((List.range n).map rho))) (col n Vp) (col n Vs) (col n rho) (vec m theta)
      (num SP)
    refine ⟨Elementwise_table e1 ?_ fun k hk j hj => ?_, Elementwise_table e2 ?_ fun k hk j hj => ?_,
      Elementwise_table e3 ?_ fun k hk j hj => ?_, Elementwise_table e4 ?_ fun k hk j hj => ?_,
      Elementwise_table e5 ?_ fun k hk j hj => ?_⟩
    all_goals first
      | rw [EI_ref_list _ _ _ _ _ _ _ hk]
        simp only [read_vec _ hj, read_col _ hk, rip, ris, read_num]
      | simp only [List.map_cons, List.map_nil, bcs_cons, bcs_nil, nd, sip, sis, bc_col_vec,
          bc_col_table, bc_self]
  · obtain ⟨e1, e2, e3, e4, e5⟩ := EI_elementwise_norm ip is
      (num (AVO.mean ((List.range n).map Vp))) (num (AVO.mean ((List.range n).map Vs)))
      (num (AVO.mean ((List.range n).map rho))) (col n Vp) (col n Vs) (col n rho) (vec m theta)
      (num SP)
    refine ⟨Elementwise_table e1 ?_ fun k hk j hj => ?_, Elementwise_table e2 ?_ fun k hk j hj => ?_,
      Elementwise_table e3 ?_ fun k hk j hj => ?_, Elementwise_table e4 ?_ fun k hk j hj => ?_,
      Elementwise_table e5 ?_ fun k hk j hj => ?_⟩
    all_goals first
      | rw [EI_ref_list _ _ _ _ _ _ _ hk]
        simp only [read_vec _ hj, read_col _ hk, rip, ris, read_num]
      | simp only [List.map_cons, List.map_nil, bcs_cons, bcs_nil, nd, sip, sis, bc_col_vec,
          bc_col_table, bc_self]

/-- When the P velocity is a log, the S velocity and the density must be logs as well. -/
theorem C102_EI_ref_mixed (n : ℕ) (Vp Vs : ℕ → Fl) (a : Fl) (x theta SP : Nd Fl) (norm : Bool) :
    AVO.EI_ref_array (vec n Vp) (num a) x theta SP norm = .error .TypeError ∧
    AVO.EI_ref_array (vec n Vp) (vec n Vs) (num a) theta SP norm = .error .TypeError :=
  ⟨rfl, rfl⟩

/-- Numbers instead of logs, normalised: every number is divided by itself, and the impedance is the
acoustic impedance at every angle. -/
theorem C102_EI_ref_numbers (m : ℕ) (theta : ℕ → ℝ) (Vp Vs rho SP : ℝ)
    (hth : ∀ j, 0 ≤ theta j ∧ theta j < 90) (hVp : 0 < Vp) (hVs : 0 < Vs) (hrho : 0 < rho) :
    ∃ pp psv svp svsv shsh, AVO.EI_ref_array (num (.fin Vp)) (num (.fin Vs)) (num (.fin rho))
        (vec m fun j => .fin (theta j)) (num (.fin SP)) true = .ok (pp, psv, svp, svsv, shsh) ∧
      IsVec pp m fun _ => .fin (Vp * rho) := by
  have hm : ∀ x : ℝ, (num (.fin x) : Nd Fl).mean = num (.fin x) := by
    intro x
    show num (AVO.mean [Fl.fin x]) = _
    congr 1
    have h1 : (PyNum.nat 1 : Fl) = Fl.fin 1 := by
      show Fl.fin ((1 : ℕ) : ℝ) = _
      rw [Nat.cast_one]
    simp only [AVO.mean, lsum, List.foldr_cons, List.foldr_nil, List.length_cons, List.length_nil,
      Nat.zero_add, h1]
    fl_eval []
    norm_num
  have e1 := (EI_elementwise_norm ((num (.fin Vp) : Nd Fl) * (num (.fin rho) : Nd Fl))
    ((num (.fin Vs) : Nd Fl) * (num (.fin rho) : Nd Fl)) (num (.fin Vp))
    (num (.fin Vs)) (num (.fin rho)) (num (.fin Vp)) (num (.fin Vs)) (num (.fin rho))
    (vec m fun j => .fin (theta j)) (num (.fin SP))).1
  have hc : AVO.EI_ref_array (num (.fin Vp)) (num (.fin Vs)) (num (.fin rho))
        (vec m fun j => .fin (theta j)) (num (.fin SP)) true
      = .ok (AVO.EI_ref_entry ((num (.fin Vp) : Nd Fl) * (num (.fin rho) : Nd Fl))
        ((num (.fin Vs) : Nd Fl) * (num (.fin rho) : Nd Fl)) (num (.fin Vp))
        (num (.fin Vs)) (num (.fin rho)) true (num (.fin Vp)) (num (.fin Vs)) (num (.fin rho))
        (vec m fun j => .fin (theta j)) (num (.fin SP))) := by
    show Except.ok (AVO.EI_ref_array_core _ _ _ _ _ _) = _
    simp only [AVO.EI_ref_array_core, hm, if_true]
  generalize AVO.EI_ref_entry (α := Nd Fl) _ _ _ _ _ _ _ _ _ _ _ = R at hc e1
  obtain ⟨pp, psv, svp, svsv, shsh⟩ := R
  refine ⟨pp, psv, svp, svsv, shsh, hc, ?_⟩
  dsimp only at e1
  have s1 := e1.1
  simp only [List.map_cons, List.map_nil, bcs_cons, bcs_nil, nd] at s1
  refine ⟨s1, fun k hk => (e1.2 (by rw [s1]; exact fun h => nomatch h) [k]).trans ?_⟩
  simp only [read_vec _ hk, read_num]
  have hr : ((num (.fin Vp) : Nd Fl) * (num (.fin rho) : Nd Fl)).read [k]
      = Fl.fin (Vp * rho) := by
    rw [read_mul (u := some []) (fits_num (by simp) _) (fits_num (by simp) _)]; rfl
  rw [hr]
  have hcos : Real.cos (theta k * (Real.pi / 180)) ≠ 0 := by
    obtain ⟨h0, h1⟩ := hth k
    have hp := Real.pi_pos
    refine (Real.cos_pos_of_mem_Ioo ⟨?_, ?_⟩).ne' <;> nlinarith
  have d1 : Fl.fin Vp / Fl.fin Vp = Fl.fin 1 := by rw [fl_div hVp.ne', div_self hVp.ne']
  have d2 : Fl.fin Vs / Fl.fin Vs = Fl.fin 1 := by rw [fl_div hVs.ne', div_self hVs.ne']
  have d3 : Fl.fin rho / Fl.fin rho = Fl.fin 1 := by rw [fl_div hrho.ne', div_self hrho.ne']
  simp only [AVO.EI_ref_entry, if_true, d1, d2, d3, deg2rad]
  fl_eval []
  simp only [Real.one_rpow, mul_one]

/-- A sandstone seen at three angles. -/
example : ∃ pp psv svp svsv shsh, AVO.EI_ref_array (num (.fin 3000)) (num (.fin 1500))
      (num (.fin 2.3)) (vec 3 fun j => .fin (min j 30)) (num (.fin 0.5)) true
        = .ok (pp, psv, svp, svsv, shsh) ∧ IsVec pp 3 fun _ => .fin (3000 * 2.3) :=
  C102_EI_ref_numbers 3 (fun j => min j 30) 3000 1500 2.3 0.5
    (fun j => ⟨by positivity, lt_of_le_of_lt (min_le_right _ _) (by norm_num)⟩)
    (by norm_num) (by norm_num) (by norm_num)

/-! ### Comparison with `None` -/

/-- A gas-oil ratio, or a Brie exponent, that is `None` or a number is used as expected (see
`C102_BW`, `C102_BW_options`); a log of two or more samples raises `ValueError`. -/
theorem C102_None (P T den G S Sc : Nd Fl) (bw : Bool) :
    BW.rho_K_go_array P T den G none = .ok (BW.rho_K_go P T den G none) ∧
    BW.co2_brine_array T P S Sc none bw = .ok (BW.co2_brine T P S Sc none bw) ∧
    (∀ r : Fl, BW.rho_K_go_array P T den G (some (num r))
        = .ok (BW.rho_K_go P T den G (some (num r))) ∧
      BW.co2_brine_array T P S Sc (some (num r)) bw
        = .ok (BW.co2_brine T P S Sc (some (num r)) bw)) ∧
    (∀ (n : ℕ) (f : ℕ → Fl), 2 ≤ n →
      BW.rho_K_go_array P T den G (some (vec n f)) = .error .ValueError ∧
      BW.co2_brine_array T P S Sc (some (vec n f)) bw = .error .ValueError) := by
  refine ⟨rfl, rfl, fun r => ⟨rfl, rfl⟩, fun n f hn => ?_⟩
  have h : isNone (some (vec n f)) = .error .ValueError :=
    if_neg (by rw [List.prod_singleton]; omega)
  unfold BW.rho_K_go_array BW.co2_brine_array
  rw [h]
  exact ⟨rfl, rfl⟩

end RockPhy.Props
