import Verif.Py.Tactic
import Verif.Spec.Source
import Verif.Lemmas.PyLoop
import Verif.Lemmas.PyArray
import Verif.Props.SourceEM
import Verif.Props.SourceArrays

/-!
# C105 for functions that iterate or hand a function to a solver

`fsolve`, `odeint`, `np.arange` and `np.empty` are answered by the library `L`; what is assumed of
it is stated in `Verif/Spec/Source.lean`.
-/

namespace RockPhy.Props

open RockPhy.Py RockPhy.Py.Val

variable {α : Type} [PyNum α]

set_option maxRecDepth 8000

theorem C105_EM_Berryman_func (K_sc G_sc : α) (K G X Alpha : List α)
    (ho : ∀ a ∈ EM.PQ_vectorize_alpha Alpha, Ordered a 1)
    (hdiv : ∀ a b x : α, PyNum.store (a / b) x = x) (L : Lib α) (hL : Empties L) (k : Nat) :
    callFn L Source.program (k + 3) n!"EM.Berryman_func"
      [tup [num K_sc, num G_sc], vec K, vec G, vec X, vec Alpha] [] =
      outcome ((EM.Berryman_func K_sc G_sc K G X Alpha).map fun r => (r.1, r.2.1)) := by
  have h := C105_EM_PQ_vectorize K_sc G_sc K G Alpha ho hdiv L hL k
  unfold EM.Berryman_func
  cases h1 : EM.PQ_vectorize K_sc G_sc K G Alpha with
  | error e => rw [h1] at h; py_eq
  | ok r =>
    obtain ⟨P, Q, A⟩ := r
    rw [h1] at h
    cases h2 : bzip (fun a b : α => a * b) X (K.map (· - K_sc)) with
    | error e => (py_both [] using (simp); rfl)
    | ok a =>
    cases h3 : bzip (fun a b : α => a * b) a P with
    | error e => (py_both [] using (simp); rfl)
    | ok b =>
    cases h4 : bzip (fun a b : α => a * b) X (G.map (· - G_sc)) with
    | error e => (py_both [] using (simp); rfl)
    | ok c =>
    cases h5 : bzip (fun a b : α => a * b) c Q <;> (py_both [] using (simp); rfl)

theorem C105_EM_Berryman_sc (fsolve : (α × α → Except PyErr (α × α)) → α × α → α × α)
    (K G X Alpha : List α)
    (ho : ∀ a ∈ EM.PQ_vectorize_alpha Alpha, Ordered a 1)
    (hdiv : ∀ a b x : α, PyNum.store (a / b) x = x) (L : Lib α) (hL : Empties L)
    (hF : FsolveErr L fsolve) (k : Nat) :
    callFn L Source.program (k + 5) n!"EM.Berryman_sc"
      [vec K, vec G, vec X, vec Alpha] [] =
      returns (EM.Berryman_sc fsolve K G X Alpha) := by
  have h := hF (callFn L Source.program (k + 3)) n!"EM.Berryman_func"
    [vec K, vec G, vec X, vec Alpha] (EM.mean K, EM.mean G) _ fun p =>
      C105_EM_Berryman_func p.1 p.2 K G X Alpha ho hdiv L hL k
  py_eq

theorem C105_EM_Berryman_DEM (odeint : (α × α → α → α × α) → α × α → List α → List (α × α))
    (ceil : α → Nat) (Km Gm Ki Gi alpha phi : α) (L : Lib α) (hO : Odeint L odeint)
    (hA : Arange L ceil) (k : Nat) :
    callFn L Source.program (k + 4) n!"EM.Berryman_DEM"
      [num Km, num Gm, num Ki, num Gi, num alpha, num phi] [] =
      returns (EM.Berryman_DEM odeint ceil Km Gm Ki Gi alpha phi) := by
  have h1 := hA (callFn L Source.program (k + 2)) (phi + 0.01) 0.01
  have h2 := hO (callFn L Source.program (k + 2)) n!"EM.DEM" [tup [num Gi, num Ki, num alpha]]
    (Km, Gm) (EM.arange ceil 0 (phi + 0.01) 0.01) _ fun p t =>
      C105_EM_DEM p.1 p.2 t Gi Ki alpha L k
  obtain ⟨h3, h4⟩ := column_pair Prod.fst Prod.snd (odeint
    (fun p t => EM.DEM p.1 p.2 t Gi Ki alpha) (Km, Gm) (EM.arange ceil 0 (phi + 0.01) 0.01))
  py_eq

/-- The body of the loop of `EM.SC_flex`. -/
def SC_flex_body : Block :=
  .ofList [
    set! "nu" := 0.5 * (3 * v!"K_eff" - 2 * v!"G_eff") / (3 * v!"K_eff" + v!"G_eff"),
    set! "S1" := 1 / 3 * (1 + v!"nu") / (1 - v!"nu"),
    set! "S2" := 2 / 15 * (4 - 5 * v!"nu") / (1 - v!"nu"),
    set! "K_eff" := (1 - v!"f" * v!"K_eff" * (v!"Km" - v!"Ki") / (v!"Km" * (v!"K_eff" -
      v!"Ki")) * (v!"K_eff" / (v!"K_eff" - v!"Ki") - v!"S1") ** (-1)) * v!"Km",
    set! "G_eff" := (1 - v!"f" * v!"G_eff" * (v!"Gm" - v!"Gi") / (v!"Gm" * (v!"G_eff" -
      v!"Gi")) * (v!"G_eff" / (v!"G_eff" - v!"Gi") - v!"S2") ** (-1)) * v!"Gm"]

/-- What the variables of `EM.SC_flex` hold after `m` rounds. -/
def SC_flex_vars (f Km Ki Gm Gi : α) (m : Nat) (env : Env α) : Prop :=
  ∃ i1 i2 i3 i4 i5 i6 i7, lookup n!"f" env = some (i1, num f) ∧
    lookup n!"Km" env = some (i2, num Km) ∧ lookup n!"Ki" env = some (i3, num Ki) ∧
    lookup n!"Gm" env = some (i4, num Gm) ∧ lookup n!"Gi" env = some (i5, num Gi) ∧
    lookup n!"K_eff" env = some (i6, num (EM.SC_flex f m Km Ki Gm Gi).1) ∧
    lookup n!"G_eff" env = some (i7, num (EM.SC_flex f m Km Ki Gm Gi).2)

theorem SC_flex_round (F : Caller α) (f Km Ki Gm Gi : α) (m : Nat) (env : Env α) (v : Val α)
    (h : SC_flex_vars f Km Ki Gm Gi m env) : ∃ env',
      ((assign F env (.var n!"i") v).bind fun env => execAll F SC_flex_body env) =
        .ok (env', Option.none) ∧ SC_flex_vars f Km Ki Gm Gi (m + 1) env' := by
  obtain ⟨i1, i2, i3, i4, i5, i6, i7, h1, h2, h3, h4, h5, h6, h7⟩ := h
  let s := EM.SC_flex f m Km Ki Gm Gi
  let nu := 0.5 * (3 * s.1 - 2 * s.2) / (3 * s.1 + s.2)
  refine ⟨(n!"G_eff", env.length + 5, num (EM.SC_flex f (m + 1) Km Ki Gm Gi).2) ::
      (n!"K_eff", env.length + 4, num (EM.SC_flex f (m + 1) Km Ki Gm Gi).1) ::
      (n!"S2", env.length + 3, num (2 / 15 * (4 - 5 * nu) / (1 - nu))) ::
      (n!"S1", env.length + 2, num (1 / 3 * (1 + nu) / (1 - nu))) ::
      (n!"nu", env.length + 1, num nu) ::
      (n!"i", env.length, v) :: env, ?_, i1, i2, i3, i4, i5, env.length + 4, env.length + 5,
      ?_, ?_, ?_, ?_, ?_, ?_, ?_⟩
  · py_eq
  · rw [← h1]; kernel_rfl
  · rw [← h2]; kernel_rfl
  · rw [← h3]; kernel_rfl
  · rw [← h4]; kernel_rfl
  · rw [← h5]; kernel_rfl
  · kernel_rfl
  · kernel_rfl

theorem C105_EM_SC_flex (f Km Ki Gm Gi : α) (n : Nat) :
    Computes 1 n!"EM.SC_flex" [num f, int (.ofNat n), num Km, num Ki, num Gm, num Gi]
      (returns (EM.SC_flex f n Km Ki Gm Gi)) := by
  intro L k
  obtain ⟨env, h, i1, i2, i3, i4, i5, i6, i7, _, _, _, _, _, hK, hG⟩ := loop_inv
    (fun env v => (assign (callFn L Source.program k) env (.var n!"i") v).bind fun env =>
      execAll (callFn L Source.program k) SC_flex_body env) (SC_flex_vars f Km Ki Gm Gi)
    (SC_flex_round (callFn L Source.program k) f Km Ki Gm Gi)
    ((List.range n).map fun i => int (.ofNat i)) 0
    [(n!"G_eff", 3, num Km), (n!"K_eff", 3, num Km), (n!"f", 5, num f),
      (n!"iter_n", 4, int (.ofNat n)), (n!"Km", 3, num Km), (n!"Ki", 2, num Ki),
      (n!"Gm", 1, num Gm), (n!"Gi", 0, num Gi)]
    ⟨5, 3, 2, 1, 0, 3, 3, by kernel_rfl, by kernel_rfl, by kernel_rfl, by kernel_rfl,
      by kernel_rfl, by kernel_rfl, by kernel_rfl⟩
  rw [Nat.zero_add, List.length_map, List.length_range] at hK hG
  py_eq

/-- A library that answers `np.empty`, `np.arange`, `fsolve` and `odeint`: with zeros, multiples of
the step, one application of the residual to the starting point (the starting point itself when the
residual raises an exception), and one step of size one from the initial value for each time. -/
noncomputable def solverLib : Lib Fl := fun F f vs kw =>
  if f = n!"np.empty" then match vs with
    | [.int (.ofNat n)] => .ok (vec (List.replicate n 0))
    | _ => .error .stuck
  else if f = n!"np.arange" then match vs with
    | [.int _, .num _, .num step] =>
      .ok (vec ((List.range 3).map fun i => 0 + PyNum.nat i * step))
    | _ => .error .stuck
  else if f = n!"fsolve" then match vs, kw with
    | [.fn g, .tup x], [(_, .tup as)] => match F g (.tup x :: as) [], x with
      | .ok (.tup [.num a, .num b]), _ => .ok (vec [a, b])
      | _, [.num a, .num b] => .ok (vec [a, b])
      | _, _ => .error .stuck
    | _, _ => .error .stuck
  else match vs, kw with
    | [.fn g, .tup [.num a, .num b], .vec t], [(_, .tup as)] =>
      (each (fun s => (F g (.tup [.num a, .num b] :: .num s :: as) []).bind fun
        | .tup [.num x, .num y] => .ok [x + a, y + b]
        | _ => .error .stuck) t).map mat
    | _, _ => .error .stuck

example : Empties solverLib ∧ Arange solverLib (fun _ => 3) ∧
    FsolveErr solverLib (fun r x => match r x with | .ok p => p | .error _ => x) ∧
    Odeint solverLib (fun r y t => t.map fun s => ((r y s).1 + y.1, (r y s).2 + y.2)) := by
  refine ⟨fun F n => ⟨List.replicate n 0, List.length_replicate, fun _ _ _ => rfl, rfl⟩,
    fun F stop step => rfl, fun F f as x r h => ?_, fun F f as y t r h => ?_⟩
  · have h := h x
    change ((match F f (.tup [.num x.1, .num x.2] :: as) [], [Val.num x.1, Val.num x.2] with
      | .ok (.tup [.num a, .num b]), _ => .ok (vec [a, b])
      | _, [.num a, .num b] => .ok (vec [a, b])
      | _, _ => .error .stuck) : Res (Val Fl)) = _
    rw [h]
    cases h1 : r x <;> simp only [h1] <;> rfl
  · change (each (fun s : Fl => (F f (.tup [.num y.1, .num y.2] :: .num s :: as) []).bind fun
        | .tup [.num a, .num b] => .ok [a + y.1, b + y.2]
        | _ => .error .stuck) t).map mat = _
    have e : (fun s : Fl => (F f (.tup [.num y.1, .num y.2] :: .num s :: as) []).bind fun
        | .tup [.num a, .num b] => (.ok [a + y.1, b + y.2] : Res (List Fl))
        | _ => .error .stuck) = fun s => Except.ok [(r y s).1 + y.1, (r y s).2 + y.2] := by
      funext s; rw [h y s]; rfl
    rw [e, each_ok, List.map_map]
    rfl

end RockPhy.Props
