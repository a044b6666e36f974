import Verif.Model.ConditionalDraws
import Mathlib.LinearAlgebra.Matrix.Block
import Mathlib.Algebra.BigOperators.Fin
import Mathlib.Algebra.BigOperators.Field
import Mathlib.Tactic.Ring
import Mathlib.Tactic.Linarith
import Mathlib.Tactic.FieldSimp

/-! # Lemmas about conditional draws: linear algebra -/

open Matrix

namespace Respy

variable {n : Nat}

/-- Symmetric positive semi-definite matrices, in elementary terms. -/
def IsPSD (M : Matrix (Fin n) (Fin n) ℝ) : Prop :=
  (∀ i j, M i j = M j i) ∧ ∀ x : Fin n → ℝ, 0 ≤ ∑ i, ∑ j, x i * M i j * x j

/-- Lower triangular matrices. -/
def IsLower (C : Matrix (Fin n) (Fin n) ℝ) : Prop := ∀ i j, i < j → C i j = 0

/-- Contract of `np.linalg.qr(·, mode="r")`: `A = Q R` with `R` upper triangular and `Q` orthogonal,
hence `R'R = A'A`. -/
def QRContract (qr : Matrix (Fin n) (Fin n) ℝ → Matrix (Fin n) (Fin n) ℝ) : Prop :=
  ∀ A, (qr A)ᵀ * qr A = Aᵀ * A ∧ IsLower (qr A)ᵀ

/-- Contract of estimagic's `robust_cholesky`: a lower triangular factor of a positive semi-definite
matrix, also of a singular one. -/
def CholeskyContract (cholesky : Matrix (Fin n) (Fin n) ℝ → Matrix (Fin n) (Fin n) ℝ) : Prop :=
  ∀ M, IsPSD M → cholesky M * (cholesky M)ᵀ = M ∧ IsLower (cholesky M)

theorem isPSD_gram {m : Nat} (B : Matrix (Fin n) (Fin m) ℝ) : IsPSD (B * Bᵀ) := by
  constructor
  · intro i j
    simp only [mul_apply, transpose_apply]
    exact Finset.sum_congr rfl fun k _ => mul_comm _ _
  · intro x
    have : ∑ i, ∑ j, x i * (B * Bᵀ) i j * x j = ∑ k, (∑ i, x i * B i k) ^ 2 := by
      simp only [mul_apply, transpose_apply, Finset.mul_sum, Finset.sum_mul]
      have h1 : ∀ k, (∑ i, x i * B i k) ^ 2 = ∑ i, ∑ j, x i * (B i k * B j k) * x j := by
        intro k
        rw [sq, Finset.sum_mul_sum]
        exact Finset.sum_congr rfl fun i _ => Finset.sum_congr rfl fun j _ => by ring
      simp only [h1]
      calc _ = ∑ i, ∑ k, ∑ j, x i * (B i k * B j k) * x j :=
            Finset.sum_congr rfl fun i _ => Finset.sum_comm
        _ = _ := Finset.sum_comm
    rw [this]
    exact Finset.sum_nonneg fun k _ => sq_nonneg _

theorem isPSD_diag_nonneg {M : Matrix (Fin n) (Fin n) ℝ} (h : IsPSD M) (i : Fin n) : 0 ≤ M i i := by
  have := h.2 (Pi.single i 1)
  simpa [Pi.single_apply, Finset.sum_ite_eq', Finset.sum_ite_eq] using this

/-- The quadratic form with one argument split off. -/
theorem quadratic_succAbove (M : Matrix (Fin (n + 1)) (Fin (n + 1)) ℝ) (hs : ∀ i j, M i j = M j i)
    (i : Fin (n + 1)) (t : ℝ) (x : Fin n → ℝ) :
    ∑ r, ∑ c, (i.insertNth t x : Fin (n + 1) → ℝ) r * M r c * (i.insertNth t x : Fin (n + 1) → ℝ) c =
      t ^ 2 * M i i + 2 * t * (∑ a, M i (i.succAbove a) * x a) +
        ∑ a, ∑ b, x a * M (i.succAbove a) (i.succAbove b) * x b := by
  rw [Fin.sum_univ_succAbove _ i]
  simp only [Fin.insertNth_apply_same, Fin.insertNth_apply_succAbove, Fin.sum_univ_succAbove _ i,
    Finset.sum_add_distrib]
  have h1 : ∑ a, t * M i (i.succAbove a) * x a = t * ∑ a, M i (i.succAbove a) * x a := by
    rw [Finset.mul_sum]; exact Finset.sum_congr rfl fun a _ => by ring
  have h2 : ∑ a, x a * M (i.succAbove a) i * t = t * ∑ a, M i (i.succAbove a) * x a := by
    rw [Finset.mul_sum]
    exact Finset.sum_congr rfl fun a _ => by rw [hs (i.succAbove a) i]; ring
  rw [h1, h2]
  ring

theorem isPSD_zero_row {M : Matrix (Fin (n + 1)) (Fin (n + 1)) ℝ} (h : IsPSD M) (i : Fin (n + 1))
    (h0 : M i i = 0) (a : Fin n) : M i (i.succAbove a) = 0 := by
  by_contra hne
  have key : ∀ t : ℝ, 0 ≤ 2 * t * M i (i.succAbove a) + M (i.succAbove a) (i.succAbove a) := by
    intro t
    have := h.2 (i.insertNth t (Pi.single a 1))
    rw [quadratic_succAbove M h.1, h0] at this
    simpa [Pi.single_apply, Finset.sum_ite_eq', Finset.sum_ite_eq] using this
  have := key (-(M (i.succAbove a) (i.succAbove a) + 1) / (2 * M i (i.succAbove a)))
  have h2 : 2 * (-(M (i.succAbove a) (i.succAbove a) + 1) / (2 * M i (i.succAbove a))) *
      M i (i.succAbove a) = -(M (i.succAbove a) (i.succAbove a) + 1) := by
    field_simp
  rw [h2] at this
  linarith

/-- The reduced covariance matrix of `update_cholcov` is positive semi-definite. -/
theorem isPSD_updatedReducedCov {M : Matrix (Fin (n + 1)) (Fin (n + 1)) ℝ} (h : IsPSD M)
    (i : Fin (n + 1)) : IsPSD (updatedReducedCov M i) := by
  constructor
  · intro a b
    simp only [updatedReducedCov]
    rw [h.1 (i.succAbove a) (i.succAbove b)]
    ring
  · intro x
    have hq := h.2 (i.insertNth (-(∑ a, M i (i.succAbove a) * x a) / M i i) x)
    rw [quadratic_succAbove M h.1] at hq
    have hexp : ∑ a, ∑ b, x a * updatedReducedCov M i a b * x b =
        ∑ a, ∑ b, x a * M (i.succAbove a) (i.succAbove b) * x b -
          (∑ a, M i (i.succAbove a) * x a) ^ 2 / M i i := by
      rw [sq, Finset.sum_mul_sum, Finset.sum_div, ← Finset.sum_sub_distrib]
      refine Finset.sum_congr rfl fun a _ => ?_
      rw [Finset.sum_div, ← Finset.sum_sub_distrib]
      refine Finset.sum_congr rfl fun b _ => ?_
      simp only [updatedReducedCov]
      ring
    rw [hexp]
    by_cases h0 : M i i = 0
    · have : ∑ a, M i (i.succAbove a) * x a = 0 :=
        Finset.sum_eq_zero fun a _ => by rw [isPSD_zero_row h i h0 a, zero_mul]
      rw [this, h0] at hq ⊢
      simpa using hq
    · have : (-(∑ a, M i (i.succAbove a) * x a) / M i i) ^ 2 * M i i +
          2 * (-(∑ a, M i (i.succAbove a) * x a) / M i i) * (∑ a, M i (i.succAbove a) * x a) =
          -((∑ a, M i (i.succAbove a) * x a) ^ 2 / M i i) := by
        field_simp
        ring
      linarith

/-- Every positive semi-definite matrix has a lower triangular factor. -/
theorem exists_cholesky : ∀ {n : Nat} (M : Matrix (Fin n) (Fin n) ℝ), IsPSD M →
    ∃ C : Matrix (Fin n) (Fin n) ℝ, C * Cᵀ = M ∧ IsLower C := by
  intro n
  induction n with
  | zero => intro M _; exact ⟨0, by ext i; exact i.elim0, fun i => i.elim0⟩
  | succ n ih =>
    intro M hM
    obtain ⟨C, hC, hl⟩ := ih _ (isPSD_updatedReducedCov hM 0)
    have hd := isPSD_diag_nonneg hM 0
    have hCe : ∀ a b, ∑ k, C a k * C b k = M a.succ b.succ - M 0 a.succ * M 0 b.succ / M 0 0 := by
      intro a b
      have := congrFun (congrFun hC a) b
      simpa [mul_apply, updatedReducedCov] using this
    refine ⟨Matrix.of fun r c => Fin.cases (Fin.cases (√(M 0 0)) (fun _ => 0) c)
      (fun a => Fin.cases (M 0 a.succ / √(M 0 0)) (fun b => C a b) c) r, ?_, ?_⟩
    · ext r c
      rw [mul_apply, Fin.sum_univ_succ]
      refine Fin.cases ?_ (fun a => ?_) r <;> refine Fin.cases ?_ (fun b => ?_) c
      · simp [transpose_apply, Real.mul_self_sqrt hd]
      · simp only [transpose_apply, of_apply, Fin.cases_zero, Fin.cases_succ, zero_mul, Finset.sum_const_zero,
          add_zero]
        by_cases h0 : M 0 0 = 0
        · have := isPSD_zero_row hM 0 h0 b
          simp only [Fin.zero_succAbove] at this
          rw [this]; simp
        · have hs : √(M 0 0) ≠ 0 := (Real.sqrt_ne_zero hd).2 h0
          field_simp
      · simp only [transpose_apply, of_apply, Fin.cases_zero, Fin.cases_succ, mul_zero, Finset.sum_const_zero,
          add_zero]
        rw [hM.1 a.succ 0]
        by_cases h0 : M 0 0 = 0
        · have := isPSD_zero_row hM 0 h0 a
          simp only [Fin.zero_succAbove] at this
          rw [this]; simp
        · have hs : √(M 0 0) ≠ 0 := (Real.sqrt_ne_zero hd).2 h0
          field_simp
      · simp only [transpose_apply, of_apply, Fin.cases_zero, Fin.cases_succ]
        rw [hCe, div_mul_div_comm, Real.mul_self_sqrt hd]
        ring
    · intro r c
      refine Fin.cases ?_ (fun a => ?_) r <;> refine Fin.cases ?_ (fun b => ?_) c
      · intro h; exact absurd h (lt_irrefl _)
      · intro _; rfl
      · intro h; exact absurd h (by simp)
      · intro h; exact hl a b (by simpa using h)

/-- The contract of `robust_cholesky` can be met. -/
theorem exists_choleskyContract (n : Nat) :
    ∃ f : Matrix (Fin n) (Fin n) ℝ → Matrix (Fin n) (Fin n) ℝ, CholeskyContract f := by
  classical
  refine ⟨fun M => if h : IsPSD M then Classical.choose (exists_cholesky M h) else 0, fun M h => ?_⟩
  simp only [h, dif_pos]
  exact Classical.choose_spec (exists_cholesky M h)

/-- The contract of `np.linalg.qr` can be met. -/
theorem exists_qrContract (n : Nat) :
    ∃ f : Matrix (Fin n) (Fin n) ℝ → Matrix (Fin n) (Fin n) ℝ, QRContract f := by
  obtain ⟨f, hf⟩ := exists_choleskyContract n
  refine ⟨fun A => (f (Aᵀ * A))ᵀ, fun A => ?_⟩
  have := hf (Aᵀ * A) (by simpa using isPSD_gram Aᵀ)
  simpa using this

/-! ### The update with measurement error -/

variable (L : Matrix (Fin n) (Fin n) ℝ)

theorem shocksCov_apply (i j : Fin n) : shocksCov L i j = ∑ k, L i k * L j k := by
  simp [shocksCov, mul_apply]

theorem shocksCov_symm (i j : Fin n) : shocksCov L i j = shocksCov L j i :=
  (isPSD_gram L).1 i j

theorem shocksCov_diag_nonneg (i : Fin n) : 0 ≤ shocksCov L i i := isPSD_diag_nonneg (isPSD_gram L) i

theorem extended_gram (s : ℝ) (i : Fin n) :
    ((extendedCholcov L s i)ᵀ * extendedCholcov L s i) 0 0 = sigmaSquared (shocksCov L) i s ∧
    (∀ j : Fin n, ((extendedCholcov L s i)ᵀ * extendedCholcov L s i) 0 j.succ = shocksCov L i j) ∧
    ∀ j k : Fin n, ((extendedCholcov L s i)ᵀ * extendedCholcov L s i) j.succ k.succ =
      shocksCov L j k := by
  simp only [mul_apply, transpose_apply, Fin.sum_univ_succ, extendedCholcov, Fin.cases_zero,
    Fin.cases_succ, sigmaSquared, shocksCov_apply]
  refine ⟨by ring, fun j => by ring, fun j k => by ring⟩

/-- The square of the lower right block of the triangular factor. -/
theorem qr_block {qr : Matrix (Fin (n + 1)) (Fin (n + 1)) ℝ → Matrix (Fin (n + 1)) (Fin (n + 1)) ℝ}
    (hqr : QRContract qr) (s : ℝ) (i : Fin n) (hpos : sigmaSquared (shocksCov L) i s ≠ 0)
    (j k : Fin n) :
    ∑ m : Fin n, qr (extendedCholcov L s i) m.succ j.succ * qr (extendedCholcov L s i) m.succ k.succ =
      shocksCov L j k - shocksCov L i j * shocksCov L i k / sigmaSquared (shocksCov L) i s := by
  obtain ⟨hR, hl⟩ := hqr (extendedCholcov L s i)
  obtain ⟨h00, h0j, hjk⟩ := extended_gram L s i
  rw [← hR] at h00 h0j hjk
  have hz : ∀ m : Fin n, qr (extendedCholcov L s i) m.succ 0 = 0 := fun m =>
    hl 0 m.succ (Fin.succ_pos m)
  simp only [mul_apply, transpose_apply, Fin.sum_univ_succ, hz, mul_zero, zero_mul,
    Finset.sum_const_zero, add_zero] at h00 h0j hjk
  set R := qr (extendedCholcov L s i)
  have hR0 : R 0 0 ≠ 0 := by
    intro h
    rw [h, mul_zero] at h00
    exact hpos h00.symm
  have := hjk j k
  have h2 : R 0 j.succ * R 0 k.succ =
      shocksCov L i j * shocksCov L i k / sigmaSquared (shocksCov L) i s := by
    rw [← h0j j, ← h0j k, ← h00]
    field_simp
  linarith

theorem sign_mul_self {x : ℝ} (h : x ≠ 0) : Real.sign x * Real.sign x = 1 := by
  rcases lt_or_gt_of_ne h with h | h
  · rw [Real.sign_of_neg h]; ring
  · rw [Real.sign_of_pos h]; ring

/-- `make_cholesky_unique` does not change the square if no diagonal element is zero. -/
theorem makeCholeskyUnique_gram (C : Matrix (Fin n) (Fin n) ℝ) (h : ∀ k, C k k ≠ 0) :
    makeCholeskyUnique C * (makeCholeskyUnique C)ᵀ = C * Cᵀ := by
  ext i j
  rw [mul_apply, mul_apply]
  simp only [makeCholeskyUnique, transpose_apply, mul_diagonal]
  refine Finset.sum_congr rfl fun k _ => ?_
  have := sign_mul_self (h k)
  calc _ = C i k * C j k * (Real.sign (C k k) * Real.sign (C k k)) := by ring
    _ = _ := by rw [this, mul_one]

theorem makeCholeskyUnique_lower (C : Matrix (Fin n) (Fin n) ℝ) (h : IsLower C) :
    IsLower (makeCholeskyUnique C) := by
  intro i j hij
  simp only [makeCholeskyUnique, mul_diagonal, h i j hij, zero_mul]

/-- With a positive standard deviation of the measurement error and a non-singular factor, the diagonal
of the triangular factor has no zero. -/
theorem qr_diag_ne_zero
    {qr : Matrix (Fin (n + 1)) (Fin (n + 1)) ℝ → Matrix (Fin (n + 1)) (Fin (n + 1)) ℝ}
    (hqr : QRContract qr) (s : ℝ) (hs : s ≠ 0) (hL : IsLower L) (hd : ∀ k, L k k ≠ 0) (i : Fin n)
    (k : Fin (n + 1)) : qr (extendedCholcov L s i) k k ≠ 0 := by
  obtain ⟨hR, hl⟩ := hqr (extendedCholcov L s i)
  have hdet : (qr (extendedCholcov L s i)).det ^ 2 = (extendedCholcov L s i).det ^ 2 := by
    have := congrArg Matrix.det hR
    rw [det_mul, det_mul, det_transpose, det_transpose] at this
    rw [sq, sq]; exact this
  have hA : (extendedCholcov L s i).det = s * ∏ k, L k k := by
    have hsplit : (extendedCholcov L s i).det = s * L.det := by
      rw [det_succ_row_zero, Fin.sum_univ_succ]
      have : ((extendedCholcov L s i).submatrix Fin.succ (Fin.succAbove 0)) = Lᵀ := by
        ext a b
        simp [extendedCholcov]
      rw [this, det_transpose]
      simp [extendedCholcov]
    rw [hsplit, det_of_isLowerTriangular L (fun a b hab => hL a b hab)]
  have hRd : (qr (extendedCholcov L s i)).det = ∏ k, qr (extendedCholcov L s i) k k := by
    rw [← det_transpose, det_of_isLowerTriangular _ (fun a b hab => hl a b hab)]
    simp
  have hne : (extendedCholcov L s i).det ≠ 0 := by
    rw [hA]
    exact mul_ne_zero hs (Finset.prod_ne_zero_iff.2 fun k _ => hd k)
  intro h0
  have : (qr (extendedCholcov L s i)).det = 0 := by
    rw [hRd]
    exact Finset.prod_eq_zero (Finset.mem_univ k) h0
  rw [this] at hdet
  exact hne (by simpa using hdet.symm)

theorem updatedCholWithMeasError_lower
    {qr : Matrix (Fin (n + 1)) (Fin (n + 1)) ℝ → Matrix (Fin (n + 1)) (Fin (n + 1)) ℝ}
    (hqr : QRContract qr) (measSds : Nat → ℝ) (i : Fin n) :
    IsLower (updatedCholWithMeasError qr L measSds i) := by
  apply makeCholeskyUnique_lower
  intro a b hab
  exact (hqr (extendedCholcov L (measSds i) i)).2 a.succ b.succ (by simpa using hab)

/-- The square of the updated factor with measurement error. -/
theorem updatedCholWithMeasError_gram
    {qr : Matrix (Fin (n + 1)) (Fin (n + 1)) ℝ → Matrix (Fin (n + 1)) (Fin (n + 1)) ℝ}
    (hqr : QRContract qr) (measSds : Nat → ℝ) (i : Fin n)
    (hpos : sigmaSquared (shocksCov L) i (measSds i) ≠ 0)
    (hdiag : ∀ k : Fin n, qr (extendedCholcov L (measSds i) i) k.succ k.succ ≠ 0) (j k : Fin n) :
    (updatedCholWithMeasError qr L measSds i * (updatedCholWithMeasError qr L measSds i)ᵀ) j k =
      shocksCov L j k - shocksCov L i j * shocksCov L i k /
        sigmaSquared (shocksCov L) i (measSds i) := by
  rw [← qr_block L hqr (measSds i) i hpos j k]
  unfold updatedCholWithMeasError
  simp only
  rw [makeCholeskyUnique_gram _ fun k => hdiag k]
  simp [mul_apply]

/-! ### The update without measurement error -/

theorem insertZero_succAbove (C : Matrix (Fin n) (Fin n) ℝ) (i : Fin (n + 1)) (a b : Fin n) :
    insertZero C i (i.succAbove a) (i.succAbove b) = C a b := by
  simp [insertZero]

theorem insertZero_row (C : Matrix (Fin n) (Fin n) ℝ) (i c : Fin (n + 1)) :
    insertZero C i i c = 0 := by
  simp [insertZero]

theorem insertZero_col (C : Matrix (Fin n) (Fin n) ℝ) (i r : Fin (n + 1)) :
    insertZero C i r i = 0 := by
  rcases Fin.eq_self_or_eq_succAbove i r with rfl | ⟨a, rfl⟩
  · exact insertZero_row C r r
  · simp [insertZero]

theorem insertZero_lower (C : Matrix (Fin n) (Fin n) ℝ) (h : IsLower C) (i : Fin (n + 1)) :
    IsLower (insertZero C i) := by
  intro r c hrc
  rcases Fin.eq_self_or_eq_succAbove i r with rfl | ⟨a, rfl⟩
  · exact insertZero_row C r c
  · rcases Fin.eq_self_or_eq_succAbove i c with rfl | ⟨b, rfl⟩
    · exact insertZero_col C c _
    · rw [insertZero_succAbove]
      exact h a b ((Fin.strictMono_succAbove i).lt_iff_lt.1 hrc)

theorem insertZero_gram (C : Matrix (Fin n) (Fin n) ℝ) (i : Fin (n + 1)) :
    insertZero C i * (insertZero C i)ᵀ = insertZero (C * Cᵀ) i := by
  ext r c
  rw [mul_apply, Fin.sum_univ_succAbove _ i]
  simp only [transpose_apply, insertZero_col, zero_mul, zero_add]
  rcases Fin.eq_self_or_eq_succAbove i r with rfl | ⟨a, rfl⟩
  · simp [insertZero_row]
  · rcases Fin.eq_self_or_eq_succAbove i c with rfl | ⟨b, rfl⟩
    · simp [insertZero_row, insertZero_col]
    · simp [insertZero_succAbove, mul_apply]

/-- The square of the updated factor without measurement error. -/
theorem updatedCholNoMeasError_gram {cholesky : Matrix (Fin n) (Fin n) ℝ → Matrix (Fin n) (Fin n) ℝ}
    (hc : CholeskyContract cholesky) (L : Matrix (Fin (n + 1)) (Fin (n + 1)) ℝ) (i : Fin (n + 1))
    (hpos : shocksCov L i i ≠ 0) (j k : Fin (n + 1)) :
    (updatedCholNoMeasError cholesky L i * (updatedCholNoMeasError cholesky L i)ᵀ) j k =
      shocksCov L j k - shocksCov L i j * shocksCov L i k / shocksCov L i i := by
  unfold updatedCholNoMeasError
  have hM : IsPSD (updatedReducedCov (shocksCov L) i) := isPSD_updatedReducedCov (isPSD_gram L) i
  rw [insertZero_gram, (hc _ hM).1]
  rcases Fin.eq_self_or_eq_succAbove i j with rfl | ⟨a, rfl⟩
  · rw [insertZero_row]
    field_simp
    ring
  · rcases Fin.eq_self_or_eq_succAbove i k with rfl | ⟨b, rfl⟩
    · rw [insertZero_col, shocksCov_symm L k (k.succAbove a)]
      field_simp
      ring
    · rw [insertZero_succAbove]
      rfl

theorem updatedCholNoMeasError_lower {cholesky : Matrix (Fin n) (Fin n) ℝ → Matrix (Fin n) (Fin n) ℝ}
    (hc : CholeskyContract cholesky) (L : Matrix (Fin (n + 1)) (Fin (n + 1)) ℝ) (i : Fin (n + 1)) :
    IsLower (updatedCholNoMeasError cholesky L i) :=
  insertZero_lower _ (hc _ (isPSD_updatedReducedCov (isPSD_gram L) i)).2 i

/-- For a lower triangular factor the truncated sum is the matrix product. -/
theorem latentDraw_lower (base mean : Fin n → ℝ) {chol : Matrix (Fin n) (Fin n) ℝ}
    (h : IsLower chol) (i : Fin n) :
    latentDraw base mean chol i = mean i + ∑ j, chol i j * base j := by
  unfold latentDraw
  congr 1
  rw [Finset.sum_filter]
  refine Finset.sum_congr rfl fun j _ => ?_
  split
  · ring
  · rename_i hj
    rw [h i j (not_le.1 hj), zero_mul]

end Respy
