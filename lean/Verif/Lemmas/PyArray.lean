import Verif.Py.Semantics

/-!
# Arrays of the source

Arrays of one length are written as `l.map f` for one list `l`; the functions of the interpreter on
such arrays act on the functions `f`.
-/

namespace RockPhy.Py

open Val

/-- Two arrays of equal length are the two columns of a list of pairs. -/
theorem columns2 {β γ : Type} (x : List β) (y : List γ) (h : x.length = y.length) :
    ∃ p : List (β × γ), x = p.map Prod.fst ∧ y = p.map Prod.snd :=
  ⟨x.zip y, by rw [List.map_fst_zip]; exact h.le, by rw [List.map_snd_zip]; exact h.ge⟩

/-- The shapes of two arrays: equal lengths, the first has one entry, the second has one entry,
or they do not fit. -/
theorem shapes2 {β γ : Type} (x : List β) (y : List γ) :
    (x.length = y.length) ∨ (∃ a, x = [a] ∧ y.length ≠ 1) ∨ (∃ b, y = [b] ∧ x.length ≠ 1) ∨
      (x.length ≠ y.length ∧ x.length ≠ 1 ∧ y.length ≠ 1) := by
  by_cases h : x.length = y.length
  · exact .inl h
  by_cases hx : x.length = 1
  · obtain ⟨a, rfl⟩ := List.length_eq_one_iff.1 hx
    exact .inr (.inl ⟨a, rfl, fun hy => h (hx.trans hy.symm)⟩)
  by_cases hy : y.length = 1
  · obtain ⟨b, rfl⟩ := List.length_eq_one_iff.1 hy
    exact .inr (.inr (.inl ⟨b, rfl, hx⟩))
  · exact .inr (.inr (.inr ⟨h, hx, hy⟩))

theorem bzip_misfit {β γ δ : Type} (f : β → γ → δ) (x : List β) (y : List γ)
    (h : x.length ≠ y.length) (hx : x.length ≠ 1) (hy : y.length ≠ 1) :
    bzip f x y = .error .ValueError := by
  unfold bzip
  rw [if_neg h]
  match x, y, hx, hy with
  | [], [], _, _ => rfl
  | [], _ :: _ :: _, _, _ => rfl
  | _ :: _ :: _, [], _, _ => rfl
  | _ :: _ :: _, _ :: _ :: _, _, _ => rfl

theorem bzip_map_right {β γ γ' δ : Type} (f : β → γ → δ) (g : γ' → γ) (x : List β)
    (y : List γ') : bzip f x (y.map g) = bzip (fun a b => f a (g b)) x y := by
  unfold bzip
  rw [List.length_map, List.zipWith_map_right]
  match x, y with
  | [], [] => rfl
  | [], [_] => rfl
  | [], _ :: _ :: _ => rfl
  | [_], [] => rfl
  | [_], [_] => rfl
  | [_], _ :: _ :: _ => simp
  | _ :: _ :: _, [] => rfl
  | _ :: _ :: _, [_] => rfl
  | _ :: _ :: _, _ :: _ :: _ => rfl

theorem bzip_same {ι β γ δ : Type} (op : β → γ → δ) (f : ι → β) (g : ι → γ) (l : List ι) :
    bzip op (l.map f) (l.map g) = .ok (l.map fun a => op (f a) (g a)) := by
  unfold bzip
  rw [if_pos (by simp), List.zipWith_map, List.zipWith_self]

theorem select_map {ι β : Type} (f : ι → β) (m : ι → Bool) (l : List ι) :
    select (l.map f) (l.map m) = .ok ((l.filter m).map f) := by
  induction l with
  | nil => rfl
  | cons a l ih =>
    rw [List.map_cons, List.map_cons, select, ih]
    cases h : m a <;> simp [Except.map, h]

theorem each_ok {β γ : Type} (f : β → γ) (l : List β) :
    each (fun a => .ok (f a)) l = .ok (l.map f) := by
  induction l with
  | nil => rfl
  | cons a l ih => rw [each, ih]; rfl

theorem each_map {ι β γ : Type} (f : β → Res γ) (g : ι → β) (l : List ι) :
    each f (l.map g) = each (fun a => f (g a)) l := by
  induction l with
  | nil => rfl
  | cons a l ih => rw [List.map_cons, each, ih]; rfl

/-- One entry paired with a row. -/
theorem bzip_one_left {β γ δ : Type} (op : β → γ → δ) (x : β) (l : List γ) :
    bzip op [x] l = .ok (l.map (op x)) := by
  match l with
  | [] => rfl
  | [_] => rfl
  | _ :: _ :: _ => rfl

theorem bzip_one_right {β γ δ : Type} (op : β → γ → δ) (l : List β) (y : γ) :
    bzip op l [y] = .ok (l.map (op · y)) := by
  match l with
  | [] => rfl
  | [_] => rfl
  | _ :: _ :: _ => rfl

theorem ofPy_ok {β : Type} (x : β) : ofPy (.ok x) = .ok x := rfl

section
variable {ι κ β γ δ : Type} (op : β → γ → δ) (l : List ι) (m : List κ)

theorem matZip_rows (f : ι → List β) (g : ι → List γ) (h : ι → List δ)
    (e : ∀ a, bzip op (f a) (g a) = .ok (h a)) :
    matZip op (l.map f) (l.map g) = .ok (l.map h) := by
  unfold matZip
  rw [bzip_same]
  change each _ (l.map _) = _
  rw [each_map]
  simp only [e, ofPy_ok]
  rw [each_ok]

theorem matZip_one_left (f : List β) (g : ι → List γ) (h : ι → List δ)
    (e : ∀ a, bzip op f (g a) = .ok (h a)) :
    matZip op [f] (l.map g) = .ok (l.map h) := by
  unfold matZip
  rw [bzip_one_left]
  change each _ ((l.map _).map _) = _
  rw [each_map, each_map]
  simp only [e, ofPy_ok]
  rw [each_ok]

theorem matZip_one_right (f : ι → List β) (g : List γ) (h : ι → List δ)
    (e : ∀ a, bzip op (f a) g = .ok (h a)) :
    matZip op (l.map f) [g] = .ok (l.map h) := by
  unfold matZip
  rw [bzip_one_right]
  change each _ ((l.map _).map _) = _
  rw [each_map, each_map]
  simp only [e, ofPy_ok]
  rw [each_ok]

/-- Two tables with the same rows and columns. -/
theorem matZip_same (F : ι → κ → β) (G : ι → κ → γ) :
    matZip op (l.map fun a => m.map fun b => F a b) (l.map fun a => m.map fun b => G a b) =
      .ok (l.map fun a => m.map fun b => op (F a b) (G a b)) :=
  matZip_rows _ _ _ _ _ fun _ => bzip_same _ _ _ _

/-- Two columns. -/
theorem matZip_cols (f : ι → β) (g : ι → γ) :
    matZip op (l.map fun a => [f a]) (l.map fun a => [g a]) = .ok (l.map fun a => [op (f a) (g a)]) :=
  matZip_rows _ _ _ _ _ fun _ => rfl

/-- A column and a row. -/
theorem matZip_col_row (f : ι → β) (g : κ → γ) :
    matZip op (l.map fun a => [f a]) [m.map g] =
      .ok (l.map fun a => m.map fun b => op (f a) (g b)) :=
  matZip_one_right _ _ _ _ _ fun _ => by rw [bzip_one_left, List.map_map]; rfl

/-- A column and an array of rank one. -/
theorem matZip_col_list (f : ι → β) (m : List γ) :
    matZip op (l.map fun a => [f a]) [m] = .ok (l.map fun a => m.map fun b => op (f a) b) :=
  matZip_one_right _ _ _ _ _ fun _ => by rw [bzip_one_left]

/-- A row and a column. -/
theorem matZip_row_col (f : κ → β) (g : ι → γ) :
    matZip op [m.map f] (l.map fun a => [g a]) =
      .ok (l.map fun a => m.map fun b => op (f b) (g a)) :=
  matZip_one_left _ _ _ _ _ fun _ => by rw [bzip_one_right, List.map_map]; rfl

/-- A table and a column. -/
theorem matZip_table_col (F : ι → κ → β) (g : ι → γ) :
    matZip op (l.map fun a => m.map fun b => F a b) (l.map fun a => [g a]) =
      .ok (l.map fun a => m.map fun b => op (F a b) (g a)) :=
  matZip_rows _ _ _ _ _ fun _ => by rw [bzip_one_right, List.map_map]; rfl

/-- A column and a table. -/
theorem matZip_col_table (f : ι → β) (G : ι → κ → γ) :
    matZip op (l.map fun a => [f a]) (l.map fun a => m.map fun b => G a b) =
      .ok (l.map fun a => m.map fun b => op (f a) (G a b)) :=
  matZip_rows _ _ _ _ _ fun _ => by rw [bzip_one_left, List.map_map]; rfl

/-- A table and a row. -/
theorem matZip_table_row (F : ι → κ → β) (g : κ → γ) :
    matZip op (l.map fun a => m.map fun b => F a b) [m.map g] =
      .ok (l.map fun a => m.map fun b => op (F a b) (g b)) :=
  matZip_one_right _ _ _ _ _ fun _ => bzip_same _ _ _ _

/-- A row and a table. -/
theorem matZip_row_table (f : κ → β) (G : ι → κ → γ) :
    matZip op [m.map f] (l.map fun a => m.map fun b => G a b) =
      .ok (l.map fun a => m.map fun b => op (f b) (G a b)) :=
  matZip_one_left _ _ _ _ _ fun _ => bzip_same _ _ _ _
end

theorem flatten_col {ι β : Type} (l : List ι) (f : ι → β) :
    (l.map fun a => [f a]).flatten = l.map f := by
  induction l with
  | nil => rfl
  | cons a l ih => rw [List.map_cons, List.flatten_cons, ih]; rfl

/-- An array of equal entries. -/
theorem replicate_map {ι β : Type} (x : β) (l : List ι) :
    List.replicate l.length x = l.map fun _ => x := by
  induction l with
  | nil => rfl
  | cons a l ih => rw [List.length_cons, List.replicate_succ, ih]; rfl

theorem bzip_left {β γ δ : Type} (op : β → γ → δ) (g : β → γ) (l : List β) :
    bzip op l (l.map g) = .ok (l.map fun a => op a (g a)) := by
  simpa using bzip_same op (fun a => a) g l

theorem bzip_right {β γ δ : Type} (op : β → γ → δ) (f : γ → β) (l : List γ) :
    bzip op (l.map f) l = .ok (l.map fun a => op (f a) a) := by
  simpa using bzip_same op f (fun a => a) l

theorem bzip_self {β δ : Type} (op : β → β → δ) (l : List β) :
    bzip op l l = .ok (l.map fun a => op a a) := by
  simpa using bzip_same op (fun a => a) (fun a => a) l

theorem range_map_get {ι β : Type} (l : List ι) (f : ι → β) (g : Nat → β)
    (h : ∀ j (hj : j < l.length), g j = f l[j]) :
    (List.range l.length).map g = l.map f := by
  apply List.ext_getElem
  · simp
  · intro i h1 h2
    simp only [List.getElem_map, List.getElem_range]
    exact h i (by simpa using h2)

/-- Rows turned into columns. -/
theorem transpose_two {ι β : Type} (f g : ι → β) (l : List ι) :
    transpose [l.map f, l.map g] = l.map fun a => [f a, g a] := by
  unfold transpose
  dsimp only
  rw [List.length_map]
  apply range_map_get
  intro j hj
  simp [hj]

theorem transpose_three {ι β : Type} (f g h : ι → β) (l : List ι) :
    transpose [l.map f, l.map g, l.map h] = l.map fun a => [f a, g a, h a] := by
  unfold transpose
  dsimp only
  rw [List.length_map]
  apply range_map_get
  intro j hj
  simp [hj]

theorem transpose_num {β : Type} (a b c : β) : transpose [[a], [b], [c]] = [[a, b, c]] := rfl

theorem mapM_ok {ι β : Type} (g : ι → β) (l : List ι) :
    (l.mapM fun a => (.ok (g a) : Except PyErr β)) = .ok (l.map g) := by
  induction l with
  | nil => rfl
  | cons a l ih => rw [List.mapM_cons, ih]; rfl

/-- The two columns of a matrix with rows of two entries. -/
theorem column_pair {β ι : Type} (f g : ι → β) (l : List ι) :
    column 0 (l.map fun p => [f p, g p]) = .ok (l.map f) ∧
      column 1 (l.map fun p => [f p, g p]) = .ok (l.map g) := by
  induction l with
  | nil => exact ⟨rfl, rfl⟩
  | cons a l ih =>
    constructor
    · rw [List.map_cons, column, ih.1]; rfl
    · rw [List.map_cons, column, ih.2]; rfl

variable {α : Type} [PyNum α]

theorem cmpNum_gt (a b : α) : cmpNum .gt a b = cmpNum .lt b a := rfl

omit [PyNum α] in
theorem vrows_two {ι : Type} (f g : ι → α) (l : List ι) :
    vrows [vec (l.map f), vec (l.map g)] = .ok [l.map f, l.map g] := by
  simp only [vrows, vrows.addRow, Except.bind, List.headD_cons, List.length_map, if_true]

omit [PyNum α] in
theorem vrows_three {ι : Type} (f g h : ι → α) (l : List ι) :
    vrows [vec (l.map f), vec (l.map g), vec (l.map h)] = .ok [l.map f, l.map g, l.map h] := by
  simp only [vrows, vrows.addRow, Except.bind, List.headD_cons, List.length_map, if_true]

omit [PyNum α] in
theorem vrows_num (a b c : α) : vrows [num a, num b, num c] = .ok [[a], [b], [c]] := rfl

theorem dot_two (a b c d : α) : dot [a, b] [c, d] = .ok (lsum [a * c, b * d]) := rfl

theorem dot_three (a b c d e f : α) :
    dot [a, b, c] [d, e, f] = .ok (lsum [a * d, b * e, c * f]) := rfl

theorem fill_map {ι β : Type} (st : β → β → β) (x : β) (f : ι → β) (m : ι → Bool) (l : List ι) :
    fill st x (l.map f) (l.map m) = .ok (l.map fun a => cond (m a) (st (f a) x) (f a)) := by
  induction l with
  | nil => rfl
  | cons a l ih => rw [List.map_cons, List.map_cons, fill, ih]; rfl

theorem scatter_map {ι β : Type} (st : β → β → β) (f g : ι → β) (m : ι → Bool) (l : List ι) :
    scatter st (l.map f) (l.map m) ((l.filter m).map g) =
      .ok (l.map fun a => cond (m a) (st (f a) (g a)) (f a)) := by
  induction l with
  | nil => rfl
  | cons a l ih =>
    rw [List.map_cons, List.map_cons]
    cases h : m a
    · rw [List.filter_cons_of_neg (by simp [h]), scatter, ih]; simp [Except.map, h]
    · rw [List.filter_cons_of_pos (by simp [h]), List.map_cons, scatter, ih]
      simp [Except.map, h]

theorem fill_of_scatter {β : Type} (st : β → β → β) (x : β) {l r : List β} {m : List Bool} {v : List β}
    (hv : ∀ y ∈ v, y = x) (h : scatter st l m v = .ok r) : fill st x l m = .ok r := by
  induction l generalizing m v r with
  | nil =>
    cases m with
    | nil => cases v <;> simp_all [scatter, fill]
    | cons b m => simp [scatter] at h
  | cons a l ih =>
    cases m with
    | nil => simp [scatter] at h
    | cons b m =>
      cases b
      · rw [scatter] at h
        cases h' : scatter st l m v with
        | error e => rw [h'] at h; cases h
        | ok r' =>
          rw [h'] at h
          rw [fill, ih hv h']
          exact h
      · cases v with
        | nil => simp [scatter] at h
        | cons y v =>
          rw [scatter] at h
          cases h' : scatter st l m v with
          | error e => rw [h'] at h; cases h
          | ok r' =>
            rw [h'] at h
            rw [fill, ih (fun z hz => hv z (List.mem_cons_of_mem _ hz)) h',
              ← hv y (List.mem_cons_self ..)]
            exact h

theorem fillWith_map {ι β : Type} (st : β → β → β) (f g : ι → β) (m : ι → Bool) (l : List ι) :
    fillWith st (l.map f) (l.map m) ((l.filter m).map g) =
      .ok (l.map fun a => cond (m a) (st (f a) (g a)) (f a)) := by
  have h := scatter_map st f g m l
  unfold fillWith
  split
  · rename_i x hx
    exact fill_of_scatter st x (fun y hy => by rw [hx] at hy; simpa using hy) h
  · rw [h, List.length_map, List.length_map, Nat.beq_refl, cond_true]

theorem fill_short {β : Type} (st : β → β → β) (x : β) {l : List β} {m : List Bool}
    (h : m.length ≠ l.length) : fill st x l m = .error (.py .IndexError) := by
  induction l generalizing m with
  | nil => cases m with
    | nil => exact absurd rfl h
    | cons b m => rfl
  | cons a l ih => cases m with
    | nil => rfl
    | cons b m => rw [fill, ih (by simpa using h)]; rfl

theorem fillWith_short {β : Type} (st : β → β → β) {l : List β} {m : List Bool} (v : List β)
    (h : m.length ≠ l.length) : fillWith st l m v = .error (.py .IndexError) := by
  unfold fillWith
  split
  · exact fill_short st _ h
  · rw [Bool.eq_false_iff.mpr fun hb => h (Nat.eq_of_beq_eq_true hb), cond_false]

theorem select_short {β : Type} {l : List β} {m : List Bool} (h : m.length ≠ l.length) :
    select l m = .error (.py .IndexError) := by
  induction l generalizing m with
  | nil => cases m with
    | nil => exact absurd rfl h
    | cons b m => rfl
  | cons a l ih => cases m with
    | nil => rfl
    | cons b m => rw [select, ih (by simpa using h)]; rfl

end RockPhy.Py
