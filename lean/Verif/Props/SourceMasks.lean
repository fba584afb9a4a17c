import Verif.Py.Tactic
import Verif.Spec.Source
import Verif.Lemmas.PyArray
import Verif.Props.SourceFluid
import Verif.Model.Emp
import Verif.Model.GM

/-!
# C105 for functions that select entries of an array, and for `Brown_Korringa_sub`
-/

namespace RockPhy.Props

open RockPhy.Py RockPhy.Py.Val

variable {α : Type} [PyNum α]

set_option maxRecDepth 8000

theorem C105_Fluid_Brown_Korringa_sub (linv : Mat6 α → Except PyErr (Mat6 α)) (Csat : Mat6 α)
    (K0 G0 Kfl1 Kfl2 phi : α) (L : Lib α) (hL : Inverts L linv) (k : Nat) :
    callFn L Source.program (k + 3) n!"Fluid.Brown_Korringa_sub"
      [mat6 Csat, num K0, num G0, num Kfl1, num Kfl2, num phi] [] =
      outcome (Fluid.Brown_Korringa_sub linv Csat K0 G0 Kfl1 Kfl2 phi) := by
  have h1 (A : Mat6 α) : callFn L Source.program (k + 2) n!"np.linalg.inv" [mat6 A] [] =
      outcome (linv A) := hL (callFn L Source.program (k + 1)) A
  have h2 (S : Mat6 α) := C105_Fluid_Brown_Korringa_sat2dry linv S K0 G0 Kfl1 phi L hL k
  have h3 (S : Mat6 α) := C105_Fluid_Brown_Korringa_dry2sat linv S K0 G0 Kfl2 phi L hL k
  change Source.Fluid.Brown_Korringa_sub.run (callFn L Source.program (k + 2)) _ _ = _
  generalize callFn L Source.program (k + 2) = F at *
  unfold Fluid.Brown_Korringa_sub
  have e1 := h1 Csat
  cases d1 : linv Csat with
  | error e => rw [d1] at e1; py_eq
  | ok Ssat =>
    rw [d1] at e1
    have e2 := h2 Ssat
    cases d2 : Fluid.Brown_Korringa_sat2dry linv Ssat K0 G0 Kfl1 phi with
    | error e => rw [d2] at e2; py_eq
    | ok Sdry =>
      rw [d2] at e2
      have e3 := h3 Sdry
      cases d3 : Fluid.Brown_Korringa_dry2sat linv Sdry K0 G0 Kfl2 phi with
      | error e => rw [d3] at e3; py_eq
      | ok Ssat2 =>
        rw [d3] at e3
        have e4 := h1 Ssat2
        cases d4 : linv Ssat2 <;> rw [d4] at e4 <;> py_eq

theorem C105_Empirical_yu_segment_trend (Z : List α) :
    Computes 1 n!"Empirical.yu_segment_trend" [vec Z]
      (returns (Empirical.yu_segment_trend Z)) := by
  intro L k; unfold Empirical.yu_segment_trend
  obtain ⟨l, rfl⟩ : ∃ l : List α, Z = l.map fun z => z := ⟨Z, by simp⟩
  py_arr [bzip_same, select_map, List.map_map, Function.comp_def]
  simp only [List.map_id', List.map_map, Function.comp_def, List.append_nil]
  kernel_rfl

theorem C105_Empirical_Japsen (Z : List α) :
    Computes 1 n!"Empirical.Japsen" [vec Z]
      (returns (Empirical.Japsen Z)) := by
  intro L k; unfold Empirical.Japsen
  obtain ⟨l, rfl⟩ : ∃ l : List α, Z = l.map fun z => z := ⟨Z, by simp⟩
  py_arr [bzip_same, select_map, List.map_map, Function.comp_def]
  simp only [List.map_id', List.map_map, Function.comp_def, List.append_nil, ← List.append_assoc]
  kernel_rfl

omit [PyNum α] in
theorem setMask_map {ι : Type} (f g : ι → α) (m : ι → Bool) (l : List ι) :
    Empirical.setMask (l.map f) (l.map m) (Empirical.getMask (l.map g) (l.map m)) =
      .ok (l.map fun a => cond (m a) (g a) (f a)) := by
  induction l with
  | nil => rfl
  | cons a l ih =>
    rw [List.map_cons, List.map_cons, List.map_cons]
    cases h : m a
    · rw [Empirical.getMask, Empirical.setMask, ih]; simp [Except.map, h]
    · rw [Empirical.getMask, Empirical.setMask, ih]; simp [Except.map, h]

theorem C105_Empirical_ramm_porosity_segment (Z : List α)
    (hmul : ∀ a b x : α, PyNum.store (a * b) x = x) :
    Computes 1 n!"Empirical.ramm_porosity_segment" [vec Z]
      (outcome (Empirical.ramm_porosity_segment Z)) := by
  intro L k
  unfold Empirical.ramm_porosity_segment
  py_arr [bzip_same, select_map, fillWith_map, List.map_map, Function.comp_def, cmpNum_gt]
  simp only [List.zipWith_map, List.zipWith_self, setMask_map, hmul]
  kernel_rfl

theorem C105_GM_diluting (isnan : α → Bool) (k_ sigma0 : α) (sigma : List α) (m : α)
    (hmul : ∀ a b x : α, PyNum.store (a * b) x = x) (L : Lib α) (hL : Isnan L isnan) (k : Nat) :
    callFn L Source.program (k + 2) n!"GM.diluting" [num k_, num sigma0, vec sigma, num m] [] =
      returns (sigma.map fun s => GM.diluting isnan k_ sigma0 s m) := by
  have h := hL (callFn L Source.program k) ((((sigma.map (· / sigma0)).map
    (1 - ·)).map (· **. m)).map (k_ * ·))
  py_arr [fill_map, List.map_map, Function.comp_def]
  simp only [hmul, GM.diluting, ← Bool.cond_eq_ite]
  kernel_rfl

theorem C105_GM_Digby (roots : α → α → α → α → List (α × α)) (K0 G0 phi Cn sigma a_R : α)
    (L : Lib α) (hL : Roots L roots) (k : Nat) :
    callFn L Source.program (k + 2) n!"GM.Digby"
      [num K0, num G0, num phi, num Cn, num sigma, num a_R] [] =
      returns (GM.Digby roots K0 G0 phi Cn sigma a_R) := by
  unfold GM.Digby
  generalize hz : roots 1 0 (3 / 2 * a_R ** 2) (-3 * pi * (1 - (3 * K0 - 2 * G0) /
    (6 * K0 + 2 * G0)) * (sigma / 1000) / (2 * Cn * (1 - phi) * G0)) = z
  have h := hL (callFn L Source.program k) 1 0 (3 / 2 * a_R ** 2) (-3 * pi * (1 - (3 * K0 - 2 * G0)
    / (6 * K0 + 2 * G0)) * (sigma / 1000) / (2 * Cn * (1 - phi) * G0))
  rw [hz] at h
  py_arr [bzip_same, select_map, fillWith_map, List.map_map, Function.comp_def]
  simp only [List.map_map, List.filter_map, Function.comp_def]
  kernel_rfl

/-- A library that answers `np.roots`, `np.isnan` and `np.linalg.inv`. -/
example : Roots (α := Fl) (fun _ _ _ _ => .ok (.cvec [⟨1, 0⟩, ⟨-1, 2⟩])) (fun _ _ _ _ =>
      [(1, 0), (-1, 2)]) ∧
    Isnan (α := Fl) (fun _ _ vs _ => match vs with
      | [.vec l] => .ok (.mask (l.map fun a => !PyNum.eq a a))
      | _ => .error .stuck) (fun a => !PyNum.eq a a) ∧
    (∀ a b x : Fl, PyNum.store (a * b) x = x) :=
  ⟨fun _ _ _ _ _ => rfl, fun _ _ => rfl, fun _ _ _ => rfl⟩

end RockPhy.Props
