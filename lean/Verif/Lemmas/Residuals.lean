import Verif.Model.EM

/-! # The residuals for arrays of equal length -/

namespace RockPhy.EM

variable {α : Type} [PyNum α]

theorem bzip_fit {β γ δ : Type} (f : β → γ → δ) {x : List β} {y : List γ}
    (h : x.length = y.length) : bzip f x y = .ok (List.zipWith f x y) := by
  unfold bzip; rw [if_pos h]

theorem PQ_vectorize_fit (Km Gm : α) {Ki Gi alpha : List α} (hG : Gi.length = Ki.length)
    (ha : alpha.length = Ki.length) :
    PQ_vectorize Km Gm Ki Gi alpha =
      .ok ((List.zipWith (fun (kg : α × α) a => PQ_vectorize_entry Km Gm kg.1 kg.2 a)
          (List.zip Ki Gi) (PQ_vectorize_alpha alpha)).map Prod.fst,
        (List.zipWith (fun (kg : α × α) a => PQ_vectorize_entry Km Gm kg.1 kg.2 a)
          (List.zip Ki Gi) (PQ_vectorize_alpha alpha)).map Prod.snd, PQ_vectorize_alpha alpha) := by
  unfold PQ_vectorize
  rw [if_neg (not_not.mpr ha), if_neg (not_not.mpr hG)]
  rfl

theorem PQ_vectorize_length {Km Gm : α} {Ki Gi alpha P Q A : List α}
    (h : PQ_vectorize Km Gm Ki Gi alpha = .ok (P, Q, A)) :
    Gi.length = Ki.length ∧ alpha.length = Ki.length ∧ P.length = Ki.length ∧
      Q.length = Ki.length := by
  by_cases ha : alpha.length = Ki.length
  · by_cases hG : Gi.length = Ki.length
    · rw [PQ_vectorize_fit Km Gm hG ha] at h
      cases h
      simp [hG, ha, PQ_vectorize_alpha]
    · unfold PQ_vectorize at h
      rw [if_neg (not_not.mpr ha), if_pos hG] at h
      cases h
  · unfold PQ_vectorize at h
    rw [if_pos ha] at h
    cases h

theorem Berryman_func_fit (K_sc G_sc : α) {K G X Alpha : List α} (hX : X.length = K.length) :
    Berryman_func K_sc G_sc K G X Alpha = (PQ_vectorize K_sc G_sc K G Alpha).map fun r =>
      (lsum (List.zipWith (· * ·) (List.zipWith (fun x k => x * (k - K_sc)) X K) r.1),
       lsum (List.zipWith (· * ·) (List.zipWith (fun x g => x * (g - G_sc)) X G) r.2.1), r.2.2) := by
  unfold Berryman_func
  cases h : PQ_vectorize K_sc G_sc K G Alpha with
  | error e => rfl
  | ok r =>
    obtain ⟨P, Q, A⟩ := r
    obtain ⟨hG, -, hP, hQ⟩ := PQ_vectorize_length h
    show (bzip (· * ·) X (K.map (· - K_sc))) >>= _ = _
    rw [bzip_fit _ (by simp [hX])]
    show (bzip (· * ·) _ P) >>= _ = _
    rw [bzip_fit _ (by simp [hX, hP])]
    show (bzip (· * ·) X (G.map (· - G_sc))) >>= _ = _
    rw [bzip_fit _ (by simp [hX, hG])]
    show (bzip (· * ·) _ Q) >>= _ = _
    rw [bzip_fit _ (by simp [hX, hQ, hG])]
    simp only [List.zipWith_map_right]
    rfl

end RockPhy.EM
