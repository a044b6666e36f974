import Verif.Model.Ols
import Verif.Spec.LeastSquares
import Mathlib.Analysis.Matrix.Spectrum
import Mathlib.Tactic.Linarith
import Mathlib.Tactic.Ring
import Mathlib.Algebra.Order.BigOperators.Ring.Finset
import Mathlib.Algebra.BigOperators.Fin

/-! # Lemmas for least squares -/

open Matrix

namespace Respy

variable {n k : Nat}

theorem eq_zero_of_mul_transpose_self {m : Type _} [Fintype m] (N : Matrix (Fin k) m ℝ) (h : N * Nᵀ = 0) :
    N = 0 := by
  ext i j
  have h1 : (N * Nᵀ) i i = 0 := by rw [h]; rfl
  simp only [Matrix.mul_apply, Matrix.transpose_apply] at h1
  have h2 := (Finset.sum_eq_zero_iff_of_nonneg (fun j _ => mul_self_nonneg (N i j))).1 h1 j (Finset.mem_univ j)
  simpa using h2

theorem IsPseudoInverse.mul_transpose {X : Matrix (Fin n) (Fin k) ℝ} {g : Matrix (Fin k) (Fin k) ℝ}
    (h : IsPseudoInverse (Xᵀ * X) g) : Xᵀ * X * g * Xᵀ = Xᵀ := by
  have h0 : (Xᵀ - Xᵀ * X * g * Xᵀ) * (Xᵀ - Xᵀ * X * g * Xᵀ)ᵀ = 0 := by
    have e1 : (Xᵀ - Xᵀ * X * g * Xᵀ) * X = 0 := by
      rw [Matrix.sub_mul, Matrix.mul_assoc (Xᵀ * X * g), h.one, sub_self]
    have e2 : (Xᵀ - Xᵀ * X * g * Xᵀ)ᵀ = X * (1 - Xᵀ * X * g) := by
      rw [Matrix.transpose_sub, Matrix.transpose_transpose, Matrix.transpose_mul (Xᵀ * X * g),
        Matrix.transpose_transpose, h.three, Matrix.mul_sub, Matrix.mul_one]
    rw [e2, ← Matrix.mul_assoc, e1, Matrix.zero_mul]
  have := eq_zero_of_mul_transpose_self _ h0
  exact (sub_eq_zero.1 this).symm

/-- The coefficients. -/
def coefficients (X : Matrix (Fin n) (Fin k) ℝ) (g : Matrix (Fin k) (Fin k) ℝ) (v : Fin n → ℝ) : Fin k → ℝ :=
  g *ᵥ (Xᵀ *ᵥ v)

theorem IsPseudoInverse.normal {X : Matrix (Fin n) (Fin k) ℝ} {g : Matrix (Fin k) (Fin k) ℝ}
    (h : IsPseudoInverse (Xᵀ * X) g) (v : Fin n → ℝ) :
    Xᵀ *ᵥ (v - X *ᵥ coefficients X g v) = 0 := by
  rw [Matrix.mulVec_sub, coefficients, Matrix.mulVec_mulVec, Matrix.mulVec_mulVec, Matrix.mulVec_mulVec,
    h.mul_transpose, sub_self]

theorem IsPseudoInverse.decompose {X : Matrix (Fin n) (Fin k) ℝ} {g : Matrix (Fin k) (Fin k) ℝ}
    (h : IsPseudoInverse (Xᵀ * X) g) (v : Fin n → ℝ) (b : Fin k → ℝ) :
    (v - X *ᵥ b) ⬝ᵥ (v - X *ᵥ b) =
      (v - X *ᵥ coefficients X g v) ⬝ᵥ (v - X *ᵥ coefficients X g v) +
        (X *ᵥ (coefficients X g v - b)) ⬝ᵥ (X *ᵥ (coefficients X g v - b)) := by
  set e := v - X *ᵥ coefficients X g v with he
  have hs : v - X *ᵥ b = e + X *ᵥ (coefficients X g v - b) := by
    rw [he, Matrix.mulVec_sub]; abel
  have ho : e ⬝ᵥ (X *ᵥ (coefficients X g v - b)) = 0 := by
    rw [Matrix.dotProduct_mulVec, ← Matrix.mulVec_transpose, he, h.normal, zero_dotProduct]
  have ho' : (X *ᵥ (coefficients X g v - b)) ⬝ᵥ e = 0 := by rw [dotProduct_comm, ho]
  rw [hs, add_dotProduct, dotProduct_add, dotProduct_add, ho, ho']
  ring

theorem IsPseudoInverse.smaller {X : Matrix (Fin n) (Fin k) ℝ} {g : Matrix (Fin k) (Fin k) ℝ}
    (h : IsPseudoInverse (Xᵀ * X) g) (v : Fin n → ℝ) (b : Fin k → ℝ)
    (hb : X *ᵥ (coefficients X g v - b) = 0) (hne : b ≠ coefficients X g v) :
    coefficients X g v ⬝ᵥ coefficients X g v < b ⬝ᵥ b := by
  set c := coefficients X g v with hc
  have h1 : (g * (Xᵀ * X)) *ᵥ c = c := by
    rw [hc, coefficients, Matrix.mulVec_mulVec, h.two]
  have h2 : (g * (Xᵀ * X)) *ᵥ (c - b) = 0 := by
    rw [← Matrix.mul_assoc, ← Matrix.mulVec_mulVec, hb, Matrix.mulVec_zero]
  have ho : c ⬝ᵥ (c - b) = 0 := by
    calc c ⬝ᵥ (c - b) = ((g * (Xᵀ * X)) *ᵥ c) ⬝ᵥ (c - b) := by rw [h1]
      _ = (c ᵥ* (g * (Xᵀ * X))ᵀ) ⬝ᵥ (c - b) := by rw [Matrix.vecMul_transpose]
      _ = (c ᵥ* (g * (Xᵀ * X))) ⬝ᵥ (c - b) := by rw [h.four]
      _ = c ⬝ᵥ ((g * (Xᵀ * X)) *ᵥ (c - b)) := by rw [Matrix.dotProduct_mulVec]
      _ = 0 := by rw [h2, dotProduct_zero]
  have hb2 : b = c - (c - b) := by abel
  have hpos : 0 < (c - b) ⬝ᵥ (c - b) := by
    have hne' : c - b ≠ 0 := fun h0 => hne (sub_eq_zero.1 h0).symm
    have hge : 0 ≤ (c - b) ⬝ᵥ (c - b) := Finset.sum_nonneg fun i _ => mul_self_nonneg _
    refine lt_of_le_of_ne hge fun h0 => hne' ?_
    funext i
    have := (Finset.sum_eq_zero_iff_of_nonneg (fun i _ => mul_self_nonneg ((c - b) i))).1 h0.symm i
      (Finset.mem_univ i)
    simpa using this
  have : b ⬝ᵥ b = c ⬝ᵥ c + (c - b) ⬝ᵥ (c - b) := by
    have ho' : (c - b) ⬝ᵥ c = 0 := by rw [dotProduct_comm, ho]
    generalize c - b = z at *
    subst hb2
    rw [sub_dotProduct, dotProduct_sub, dotProduct_sub, ho, ho']
    ring
  linarith

/-! Lists and matrices. -/

theorem prediction_ofFn (r b : Fin k → ℝ) : prediction (List.ofFn r) (List.ofFn b) = r ⬝ᵥ b := by
  unfold prediction
  have : List.zipWith (· * ·) (List.ofFn r) (List.ofFn b) = List.ofFn fun i => r i * b i := by
    apply List.ext_getElem (by simp)
    intro i h1 h2
    simp
  rw [this, List.sum_ofFn]
  rfl

theorem squaredResiduals_ofFn (X : Matrix (Fin n) (Fin k) ℝ) (v : Fin n → ℝ) (b : Fin k → ℝ) :
    squaredResiduals (List.ofFn v) (List.ofFn fun i => List.ofFn (X i)) (List.ofFn b) =
      (v - X *ᵥ b) ⬝ᵥ (v - X *ᵥ b) := by
  unfold squaredResiduals
  have : List.zipWith (fun row w => (w - prediction row (List.ofFn b)) ^ 2)
      (List.ofFn fun i => List.ofFn (X i)) (List.ofFn v) =
      List.ofFn fun i => (v i - (X i) ⬝ᵥ b) ^ 2 := by
    apply List.ext_getElem (by simp)
    intro i h1 h2
    simp [prediction_ofFn]
  rw [this, List.sum_ofFn]
  apply Finset.sum_congr rfl
  intro i _
  simp only [Pi.sub_apply, Matrix.mulVec]
  ring

theorem squaredNorm_ofFn (b : Fin k → ℝ) : squaredNorm (List.ofFn b) = b ⬝ᵥ b := by
  unfold squaredNorm
  rw [List.map_ofFn, List.sum_ofFn]
  apply Finset.sum_congr rfl
  intro i _
  simp [sq]

theorem list_eq_ofFn {α : Type _} (l : List α) (h : l.length = k) : ∃ f : Fin k → α, l = List.ofFn f := by
  subst h
  exact ⟨fun i => l[i], List.ofFn_getElem.symm⟩

theorem rows_eq_ofFn (x : List (List ℝ)) (hn : x.length = n) (hk : ∀ r ∈ x, r.length = k) :
    ∃ X : Matrix (Fin n) (Fin k) ℝ, x = List.ofFn fun i => List.ofFn (X i) := by
  subst hn
  choose f hf using fun i : Fin x.length => list_eq_ofFn (x[i]) (hk _ (List.getElem_mem i.2))
  refine ⟨f, ?_⟩
  refine (List.ofFn_getElem (xs := x)).symm.trans ?_
  congr 1
  funext i
  exact hf i

theorem olsWith_ofFn (pinv : (k : Nat) → Matrix (Fin k) (Fin k) ℝ → Matrix (Fin k) (Fin k) ℝ)
    (X : Matrix (Fin n) (Fin k) ℝ) (v : Fin n → ℝ) :
    olsWith pinv k (List.ofFn v) (List.ofFn fun i => List.ofFn (X i)) =
      List.ofFn (coefficients X (pinv k (Xᵀ * X)) v) := by
  have hlen : (List.ofFn fun i => List.ofFn (X i)).length = n := by simp
  have hX : ∀ a (i : Fin k), designMatrix k (List.ofFn fun i => List.ofFn (X i)) a i =
      X (finCongr hlen a) i := by
    intro a i
    simp only [designMatrix, Fin.getElem_fin, List.getElem_ofFn, List.getD_eq_getElem?_getD,
      List.getElem?_ofFn, i.2, dif_pos, Option.getD_some, Fin.eta]
    rfl
  have hv : ∀ a, responseVector (List.ofFn fun i => List.ofFn (X i)).length (List.ofFn v) a =
      v (finCongr hlen a) := by
    intro a
    have ha : (a : Nat) < n := lt_of_lt_of_eq a.2 hlen
    simp only [responseVector, List.getD_eq_getElem?_getD, List.getElem?_ofFn, ha, dif_pos, Option.getD_some]
    rfl
  unfold olsWith coefficients
  have hA : (designMatrix k (List.ofFn fun i => List.ofFn (X i)))ᵀ *
      designMatrix k (List.ofFn fun i => List.ofFn (X i)) = Xᵀ * X := by
    ext i j
    simp only [Matrix.mul_apply, Matrix.transpose_apply, hX]
    exact Fintype.sum_equiv (finCongr hlen) _ _ fun a => rfl
  have hb : (designMatrix k (List.ofFn fun i => List.ofFn (X i)))ᵀ *ᵥ
      responseVector (List.ofFn fun i => List.ofFn (X i)).length (List.ofFn v) = Xᵀ *ᵥ v := by
    funext i
    simp only [Matrix.mulVec, dotProduct, Matrix.transpose_apply, hX, hv]
    exact Fintype.sum_equiv (finCongr hlen) _ _ fun a => rfl
  rw [hA, hb]

/-- Every real symmetric matrix has a pseudo-inverse. -/
theorem exists_pseudoInverse (A : Matrix (Fin k) (Fin k) ℝ) (hA : Aᵀ = A) : ∃ g, IsPseudoInverse A g := by
  have hH : A.IsHermitian := by
    unfold Matrix.IsHermitian
    rw [Matrix.conjTranspose_eq_transpose_of_trivial, hA]
  have hs := hH.spectral_theorem
  set u : Matrix (Fin k) (Fin k) ℝ := (hH.eigenvectorUnitary : Matrix (Fin k) (Fin k) ℝ) with hu
  have huu : uᵀ * u = 1 := by
    have := Matrix.mem_unitaryGroup_iff'.1 hH.eigenvectorUnitary.2
    rwa [Matrix.star_eq_conjTranspose, Matrix.conjTranspose_eq_transpose_of_trivial] at this
  have hdec : A = u * Matrix.diagonal hH.eigenvalues * uᵀ := by
    conv_lhs => rw [hs]
    rw [Unitary.conjStarAlgAut_apply, Matrix.star_eq_conjTranspose,
      Matrix.conjTranspose_eq_transpose_of_trivial]
    rfl
  generalize hH.eigenvalues = d at hdec
  have hmul : ∀ p q : Fin k → ℝ, (u * Matrix.diagonal p * uᵀ) * (u * Matrix.diagonal q * uᵀ) =
      u * Matrix.diagonal (fun i => p i * q i) * uᵀ := by
    intro p q
    calc (u * Matrix.diagonal p * uᵀ) * (u * Matrix.diagonal q * uᵀ)
        = u * Matrix.diagonal p * (uᵀ * u) * Matrix.diagonal q * uᵀ := by simp only [Matrix.mul_assoc]
      _ = _ := by rw [huu, Matrix.mul_one, Matrix.mul_assoc u, Matrix.diagonal_mul_diagonal]
  have htr : ∀ p : Fin k → ℝ, (u * Matrix.diagonal p * uᵀ)ᵀ = u * Matrix.diagonal p * uᵀ := by
    intro p
    simp [Matrix.transpose_mul, Matrix.mul_assoc]
  refine ⟨u * Matrix.diagonal (fun i => (d i)⁻¹) * uᵀ, ?_, ?_, ?_, ?_⟩
  · rw [hdec, hmul, hmul]
    congr 3
    funext i
    by_cases h : d i = 0
    · simp [h]
    · field_simp
  · rw [hdec, hmul, hmul]
    congr 3
    funext i
    by_cases h : d i = 0
    · simp [h]
    · field_simp
  · rw [hdec, hmul, htr]
  · rw [hdec, hmul, htr]

end Respy
