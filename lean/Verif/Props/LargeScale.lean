import Verif.Model.LargeScale
import Verif.Props.Bbob
import Verif.Props.Blocks
import Verif.Props.Permutation
import Verif.Props.Schwefel

/-!
# The problems of the bbob-largescale suite: C87
-/

namespace LargeScale
open Classical Transform Bbob

variable {n : Nat}

/-- The random matrices of all blocks of the rotation for the seed are regular. -/
def Spec.Regular (seed : Int) (n : Nat) : Prop :=
  ∀ sizes, Rotation.blockSizes n = .ok sizes → Rotation.Spec.Regular seed sizes

/-! ### Random data -/

theorem perm_list {l : List Nat} (hl : l.Perm (List.range n)) :
    ∃ h : ∀ i : Fin n, l.getD i n < n, Function.Injective fun i : Fin n => (⟨l.getD i n, h i⟩ : Fin n) := by
  have hlen : l.length = n := by simpa using hl.length_eq
  have hget : ∀ i : Fin n, l.getD i n = l[i.1]'(by omega) := fun i => List.getD_eq_getElem _ _ (by omega)
  refine ⟨fun i => ?_, fun i j hij => ?_⟩
  · rw [hget]
    have : l[i.1]'(by omega) ∈ List.range n := hl.mem_iff.1 (List.getElem_mem _)
    exact List.mem_range.1 this
  · have hnd : l.Nodup := hl.nodup_iff.2 List.nodup_range
    have e := Fin.mk.inj_iff.1 hij
    rw [hget, hget] at e
    exact Fin.ext ((hnd.getElem_inj_iff).1 e)

theorem perm_ok (qsort : Permutation.SortFn) (hq : Permutation.Spec.IsSort qsort) (seed : Int)
    (hs : seed.natAbs + n * 1000 < 2 ^ 31 * 127773) :
    ∃ p : Fin n → Fin n, perm qsort seed n = .ok p ∧ Function.Injective p := by
  obtain ⟨nb, range, l, h1, h2, h3, h4⟩ := Permutation.C49_largescale qsort hq seed n hs
  obtain ⟨h, hi⟩ := perm_list h4
  refine ⟨_, ?_, hi⟩
  unfold perm
  rw [h2, Res.ok_bind, h1, Res.ok_bind, h3, Res.ok_bind, dif_pos h]

theorem columns_of_rows {M : Fin n → Fin n → ℝ} (hM : Transform.Spec.Orthonormal M) (i j : Fin n) :
    ∑ k, M k i * M k j = if i = j then 1 else 0 := by
  have h : (Matrix.of M) * (Matrix.of M).transpose = 1 := by
    ext a b
    rw [Matrix.mul_apply, Matrix.one_apply]
    exact hM a b
  have h2 : (Matrix.of M).transpose * (Matrix.of M) = 1 := mul_eq_one_comm.1 h
  have h' : ((Matrix.of M).transpose * (Matrix.of M)) i j = (1 : Matrix (Fin n) (Fin n) ℝ) i j := by rw [h2]
  rw [Matrix.mul_apply, Matrix.one_apply] at h'
  exact h'

theorem matrix_ok (seed : Int) (h0 : 0 < n) (hs : seed.natAbs + 1000000 * n < 2 ^ 31 * 127773)
    (hr : Spec.Regular seed n) : ∃ M : Fin n → Fin n → ℝ, matrix seed n = .ok M ∧ Transform.Spec.Orthonormal M ∧
      ∀ j, |∑ i, M i j| ≤ 8 := by
  obtain ⟨sizes, e1, hsum, hsz, -⟩ := Rotation.C51_sizes n h0
  have hreg := hr sizes e1
  have hlen : sizes.length ≤ n := by
    rw [← hsum]
    calc sizes.length = (sizes.map fun _ => 1).sum := by simp
      _ ≤ (sizes.map id).sum := List.sum_le_sum fun s hs' => (hsz s hs').1
      _ = sizes.sum := by simp
  have hne : sizes ≠ [] := by
    rintro rfl
    simp at hsum
    omega
  obtain ⟨B, e2, hB, ho⟩ := Rotation.C84_orthogonal seed sizes (fun s hs' => by have := hsz s hs'; omega) (by omega) hreg
  have e3 := Rotation.C84_accepted B sizes (fun s hs' => (hsz s hs').1) hne hB ho
  rw [hsum] at e2 e3
  have hval : ∀ i j : Fin n, (let size := (((List.range n).map (Rotation.Spec.blockOf sizes)).getD i (0, 0)).1
      let first := (((List.range n).map (Rotation.Spec.blockOf sizes)).getD i (0, 0)).2
      if first ≤ j.1 ∧ j.1 < first + size then (B.getD i []).getD (j - first) 0 else 0) =
      Rotation.Spec.full B sizes i j := by
    intro i j
    have : ((List.range n).map (Rotation.Spec.blockOf sizes)).getD i (0, 0) = Rotation.Spec.blockOf sizes i := by
      rw [List.getD_eq_getElem _ _ (by simp)]
      simp
    rw [this]
    rfl
  have horth : Transform.Spec.Orthonormal fun i j : Fin n => Rotation.Spec.full B sizes i j := by
    intro i j
    have h := ho i j (by omega) (by omega)
    rw [hsum, Finset.sum_range] at h
    rw [h]
    simp [Fin.ext_iff]
  refine ⟨fun i j => Rotation.Spec.full B sizes i j, ?_, horth, fun j => ?_⟩
  · unfold matrix
    rw [e1, Res.ok_bind, e2, Res.ok_bind, e3, Res.ok_bind]
    congr 1
    funext i j
    exact hval i j
  · have hj := Rotation.C51_blocks sizes j j (by omega) (by omega)
    have h40 : (Rotation.Spec.blockOf sizes j).1 ≤ 40 := by
      have : ∀ (l : List Nat) (i : Nat), (∀ s ∈ l, s ≤ 40) → (Rotation.Spec.blockOf l i).1 ≤ 40 := by
        intro l
        induction l with
        | nil => intro i _; simp [Rotation.Spec.blockOf]
        | cons s l ih =>
          intro i h
          unfold Rotation.Spec.blockOf
          split_ifs
          · exact h s (by simp)
          · exact ih _ fun s hs' => h s (by simp [hs'])
      exact this sizes j fun s hs' => (hsz s hs').2
    let S : Finset (Fin n) := Finset.univ.filter fun i => Rotation.Spec.blockOf sizes i = Rotation.Spec.blockOf sizes j
    have hcard : S.card ≤ 40 := by
      have hmaps : ∀ i ∈ S, i.1 - (Rotation.Spec.blockOf sizes j).2 ∈ Finset.range 40 := by
        intro i hi
        have e : Rotation.Spec.blockOf sizes i = Rotation.Spec.blockOf sizes j := (Finset.mem_filter.1 hi).2
        have := Rotation.C51_blocks sizes i i (by omega) (by omega)
        rw [e] at this
        rw [Finset.mem_range]
        omega
      have := Finset.card_le_card_of_injOn _ hmaps (by
        intro a ha b hb hab
        have ea : Rotation.Spec.blockOf sizes a = Rotation.Spec.blockOf sizes j :=
          (Finset.mem_filter.1 (Finset.mem_coe.1 ha)).2
        have eb : Rotation.Spec.blockOf sizes b = Rotation.Spec.blockOf sizes j :=
          (Finset.mem_filter.1 (Finset.mem_coe.1 hb)).2
        have h1 := Rotation.C51_blocks sizes a a (by omega) (by omega)
        have h2 := Rotation.C51_blocks sizes b b (by omega) (by omega)
        rw [ea] at h1
        rw [eb] at h2
        dsimp only at hab
        exact Fin.ext (by omega))
      simpa using this
    have hzero : ∀ i ∉ S, Rotation.Spec.full B sizes i j = 0 := by
      intro i hi
      exact Rotation.C51_zero B sizes i j (by omega) (by omega) fun e => hi (by simp [S, e])
    have e : ∑ i : Fin n, Rotation.Spec.full B sizes i j = ∑ i ∈ S, Rotation.Spec.full B sizes i j :=
      (Finset.sum_subset (Finset.subset_univ S) fun i _ hi => hzero i hi).symm
    have h1 : (∑ i ∈ S, Rotation.Spec.full B sizes i j) ^ 2 ≤ S.card * ∑ i ∈ S, Rotation.Spec.full B sizes i j ^ 2 :=
      sq_sum_le_card_mul_sum_sq
    have h2 : ∑ i ∈ S, Rotation.Spec.full B sizes i j ^ 2 ≤ 1 := by
      have hc := columns_of_rows horth j j
      rw [if_pos rfl] at hc
      rw [← hc]
      calc ∑ i ∈ S, Rotation.Spec.full B sizes i j ^ 2 ≤ ∑ i : Fin n, Rotation.Spec.full B sizes i j ^ 2 :=
            Finset.sum_le_sum_of_subset_of_nonneg (Finset.subset_univ _) fun _ _ _ => sq_nonneg _
        _ = _ := Finset.sum_congr rfl fun i _ => sq _
    have h3 : (S.card : ℝ) ≤ 40 := by exact_mod_cast hcard
    have h4 : 0 ≤ ∑ i ∈ S, Rotation.Spec.full B sizes i j ^ 2 := Finset.sum_nonneg fun _ _ => sq_nonneg _
    rw [e]
    refine abs_le_of_sq_le_sq ?_ (by norm_num)
    nlinarith

theorem scatter_image {p : Fin n → Fin n} (hp : Function.Injective p) (x : Vec n) (i : Fin n) :
    scatter p x (p i) = x i := by
  unfold scatter
  have key : ∀ (l : List (Fin n)) (v : ℝ), (i ∈ l ∨ v = x i) →
      l.foldl (fun v j => if p j = p i then x j else v) v = x i := by
    intro l
    induction l with
    | nil => intro v h; simpa using h
    | cons a l ih =>
      intro v h
      rw [List.foldl_cons]
      refine ih _ ?_
      by_cases hai : a = i
      · right; rw [hai, if_pos rfl]
      · rw [if_neg fun h' => hai (hp h')]
        rcases h with h | h
        · left; exact (List.mem_cons.1 h).resolve_left fun h' => hai h'.symm
        · right; exact h
  exact key _ _ (Or.inl (List.mem_finRange i))

theorem scatter_zero (p : Fin n → Fin n) : scatter p 0 = 0 := by
  funext k
  unfold scatter
  have key : ∀ (l : List (Fin n)), l.foldl (fun v j => if p j = k then (0 : Vec n) j else v) (0 : ℝ) = 0 := by
    intro l
    induction l with
    | nil => rfl
    | cons a l ih => rw [List.foldl_cons]; simpa using ih
  exact key _

/-! ### Basic functions -/

theorem discus_nonneg (x : Vec n) : 0 ≤ discus x := by
  refine add_nonneg (mul_nonneg (Finset.sum_nonneg fun i _ => ?_) (by norm_num)) (Finset.sum_nonneg fun i _ => ?_) <;>
    split_ifs <;> first | exact le_rfl | exact mul_self_nonneg _

theorem bentCigar_nonneg (x : Vec n) : 0 ≤ bentCigar x := by
  refine add_nonneg (Finset.sum_nonneg fun i _ => ?_) (Finset.sum_nonneg fun i _ => ?_) <;>
    split_ifs <;> first | exact le_rfl | exact mul_self_nonneg _ | nlinarith [mul_self_nonneg (x i)]

theorem sharpRidge_nonneg (x : Vec n) : 0 ≤ sharpRidge x := by
  refine add_nonneg (mul_nonneg (by norm_num) (Real.sqrt_nonneg _)) (Finset.sum_nonneg fun i _ => ?_)
  split_ifs <;> first | exact le_rfl | exact mul_self_nonneg _

theorem stepCore_nonneg (z : ℝ) (x : Vec n) : 0 ≤ stepCore z x := by
  refine mul_nonneg (by norm_num) (le_max_of_le_right (Finset.sum_nonneg fun i _ => ?_))
  rw [mul_assoc]
  exact mul_nonneg (Real.rpow_nonneg (by norm_num) _) (mul_self_nonneg _)

theorem stepCore_zero : stepCore 0 (0 : Vec n) = 0 := by simp [stepCore]

theorem roundCoordinate_zero (a : ℝ) : roundCoordinate a 0 = 0 := by simp [roundCoordinate, roundDouble_zero]

theorem factor_one (n : Nat) : max 1 (Real.sqrt (Rotation.blockSize n) / 8) = 1 := by
  have h : Rotation.blockSize n ≤ 44 := by unfold Rotation.blockSize; omega
  exact Bbob.factor_eq_one h

/-! ### The problems -/

section
variable (qsort : Permutation.SortFn) (hq : Permutation.Spec.IsSort qsort) (function inst : Nat) (hf : function ≤ 24)
  (hi : inst ≤ 10 ^ 10) (seed : Int) (hs : 0 ≤ seed ∧ seed ≤ 10 ^ 14 + 24) (hn : 2 ≤ n) (hn' : n ≤ 10 ^ 6)
  (hr : Spec.Regular seed n ∧ Spec.Regular (seed + 1000000) n)

include hq hf hi hs hn hn' hr

theorem attractiveSectorProblem_known : ∃ P v, attractiveSectorProblem qsort function inst seed n = .ok P ∧
    Legacy.computeFopt function inst = .ok v ∧ Bbob.Spec.KnownIn 4 P v := by
  obtain ⟨v, ev⟩ := fopt_ok function inst (by omega) hi
  obtain ⟨x, ex, hx4, hx⟩ := getXopt_ok .largescale seed (by omega) n
  obtain ⟨M, eM, hM, -⟩ := matrix_ok (seed + 1000000) (by omega) (by omega) hr.2
  obtain ⟨N, eN, hN, -⟩ := matrix_ok seed (by omega) (by omega) hr.1
  obtain ⟨p11, ep11, -⟩ := perm_ok (n := n) qsort hq (seed + 2000000) (by omega)
  obtain ⟨p12, ep12, -⟩ := perm_ok (n := n) qsort hq (seed + 3000000) (by omega)
  obtain ⟨p21, ep21, -⟩ := perm_ok (n := n) qsort hq (seed + 4000000) (by omega)
  obtain ⟨p22, ep22, -⟩ := perm_ok (n := n) qsort hq (seed + 5000000) (by omega)
  have h1 : n ≠ 1 := by omega
  obtain ⟨P, eP, Q, eQ, hl, hh, ho⟩ := solved (f := attractiveSector x) (best := (0 : Vec n)) false hn (by simp [attractiveSector])
    (attractiveSector_nonneg x)
    [.normByDim, .objOscillate, .objPower 0.9, .objShift v, .permutation p22, .blockRotation M, .permutation p21,
      .conditioning 10, .permutation p12, .blockRotation N, .permutation p11, .varsShift x] (by
      simp only [Transform.Spec.FitsAll, Transform.Spec.Fits, Transform.Spec.move, Transform.Spec.value]
      simp [h1, fun_zero, tosz_zero, hx]; constructor
      · omega
      · norm_num)
  refine ⟨Q, v, ?_, ev, ?_⟩
  · unfold attractiveSectorProblem
    rw [ev, Res.ok_bind, ex, Res.ok_bind, eM, Res.ok_bind, eN, Res.ok_bind, ep11, Res.ok_bind, ep12, Res.ok_bind, ep21, Res.ok_bind, ep22, Res.ok_bind, eP, Res.ok_bind, eQ]
  · refine known_of ho (by simp [Transform.Spec.value, tosz_zero]; norm_num) hl hh ?_
    intro i; simpa [Transform.Spec.move, Bbob.Spec.reach] using hx4 i

theorem ellipsoidProblem_known : ∃ P v, ellipsoidProblem qsort function inst seed n = .ok P ∧
    Legacy.computeFopt function inst = .ok v ∧ Bbob.Spec.KnownIn 4 P v := by
  obtain ⟨v, ev⟩ := fopt_ok function inst (by omega) hi
  obtain ⟨x, ex, hx4, hx⟩ := getXopt_ok .largescale seed (by omega) n
  obtain ⟨M, eM, hM, -⟩ := matrix_ok (seed + 1000000) (by omega) (by omega) hr.2
  obtain ⟨p1, ep1, -⟩ := perm_ok (n := n) qsort hq (seed + 2000000) (by omega)
  obtain ⟨p2, ep2, -⟩ := perm_ok (n := n) qsort hq (seed + 3000000) (by omega)
  have h1 : n ≠ 1 := by omega
  obtain ⟨P, eP, Q, eQ, hl, hh, ho⟩ := solved (f := ellipsoid (10 ^ 6)) (best := (0 : Vec n)) false hn (by simp [ellipsoid])
    (ellipsoid_nonneg (by norm_num))
    [.oscillate, .permutation p2, .blockRotation M, .permutation p1, .varsShift x, .normByDim, .objShift v] (by
      simp only [Transform.Spec.FitsAll, Transform.Spec.Fits, Transform.Spec.move, Transform.Spec.value]
      simp [h1, fun_zero, tosz_zero, hx]; omega)
  refine ⟨Q, v, ?_, ev, ?_⟩
  · unfold ellipsoidProblem
    rw [ex, Res.ok_bind, ev, Res.ok_bind, eM, Res.ok_bind, ep1, Res.ok_bind, ep2, Res.ok_bind, eP, Res.ok_bind, eQ]
  · refine known_of ho (by simp [Transform.Spec.value, tosz_zero]) hl hh ?_
    intro i; simpa [Transform.Spec.move, Bbob.Spec.reach] using hx4 i

theorem discusProblem_known : ∃ P v, discusProblem qsort function inst seed n = .ok P ∧
    Legacy.computeFopt function inst = .ok v ∧ Bbob.Spec.KnownIn 4 P v := by
  obtain ⟨v, ev⟩ := fopt_ok function inst (by omega) hi
  obtain ⟨x, ex, hx4, hx⟩ := getXopt_ok .largescale seed (by omega) n
  obtain ⟨M, eM, hM, -⟩ := matrix_ok (seed + 1000000) (by omega) (by omega) hr.2
  obtain ⟨p1, ep1, -⟩ := perm_ok (n := n) qsort hq (seed + 2000000) (by omega)
  obtain ⟨p2, ep2, -⟩ := perm_ok (n := n) qsort hq (seed + 3000000) (by omega)
  have h1 : n ≠ 1 := by omega
  obtain ⟨P, eP, Q, eQ, hl, hh, ho⟩ := solved (f := discus) (best := (0 : Vec n)) false hn (by simp [discus])
    discus_nonneg
    [.oscillate, .permutation p2, .blockRotation M, .permutation p1, .varsShift x, .normByDim, .objShift v] (by
      simp only [Transform.Spec.FitsAll, Transform.Spec.Fits, Transform.Spec.move, Transform.Spec.value]
      simp [h1, fun_zero, tosz_zero, hx]; omega)
  refine ⟨Q, v, ?_, ev, ?_⟩
  · unfold discusProblem
    rw [ex, Res.ok_bind, ev, Res.ok_bind, eM, Res.ok_bind, ep1, Res.ok_bind, ep2, Res.ok_bind, eP, Res.ok_bind, eQ]
  · refine known_of ho (by simp [Transform.Spec.value, tosz_zero]) hl hh ?_
    intro i; simpa [Transform.Spec.move, Bbob.Spec.reach] using hx4 i

theorem bentCigarProblem_known : ∃ P v, bentCigarProblem qsort function inst seed n = .ok P ∧
    Legacy.computeFopt function inst = .ok v ∧ Bbob.Spec.KnownIn 4 P v := by
  obtain ⟨v, ev⟩ := fopt_ok function inst (by omega) hi
  obtain ⟨x, ex, hx4, hx⟩ := getXopt_ok .largescale (seed + 1000000) (by omega) n
  obtain ⟨M, eM, hM, -⟩ := matrix_ok (seed + 1000000) (by omega) (by omega) hr.2
  obtain ⟨p1, ep1, -⟩ := perm_ok (n := n) qsort hq (seed + 2000000) (by omega)
  obtain ⟨p2, ep2, -⟩ := perm_ok (n := n) qsort hq (seed + 3000000) (by omega)
  have h1 : n ≠ 1 := by omega
  obtain ⟨P, eP, Q, eQ, hl, hh, ho⟩ := solved (f := bentCigar) (best := (0 : Vec n)) false hn (by simp [bentCigar])
    bentCigar_nonneg
    [.permutation p2, .blockRotation M, .permutation p1, .asymmetric 0.5, .permutation p2, .blockRotation M,
      .permutation p1, .varsShift x, .normByDim, .objShift v] (by
      simp only [Transform.Spec.FitsAll, Transform.Spec.Fits, Transform.Spec.move, Transform.Spec.value]
      simp [h1, fun_zero, tosz_zero, hx]; omega)
  refine ⟨Q, v, ?_, ev, ?_⟩
  · unfold bentCigarProblem
    rw [ex, Res.ok_bind, ev, Res.ok_bind, eM, Res.ok_bind, ep1, Res.ok_bind, ep2, Res.ok_bind, eP, Res.ok_bind, eQ]
  · refine known_of ho (by simp [Transform.Spec.value, tosz_zero]) hl hh ?_
    intro i; simpa [Transform.Spec.move, Bbob.Spec.reach] using hx4 i

theorem sharpRidgeProblem_known : ∃ P v, sharpRidgeProblem qsort function inst seed n = .ok P ∧
    Legacy.computeFopt function inst = .ok v ∧ Bbob.Spec.KnownIn 4 P v := by
  obtain ⟨v, ev⟩ := fopt_ok function inst (by omega) hi
  obtain ⟨x, ex, hx4, hx⟩ := getXopt_ok .largescale seed (by omega) n
  obtain ⟨M, eM, hM, -⟩ := matrix_ok (seed + 1000000) (by omega) (by omega) hr.2
  obtain ⟨N, eN, hN, -⟩ := matrix_ok seed (by omega) (by omega) hr.1
  obtain ⟨p11, ep11, -⟩ := perm_ok (n := n) qsort hq (seed + 3000000) (by omega)
  obtain ⟨p21, ep21, -⟩ := perm_ok (n := n) qsort hq (seed + 4000000) (by omega)
  obtain ⟨p12, ep12, -⟩ := perm_ok (n := n) qsort hq (seed + 5000000) (by omega)
  obtain ⟨p22, ep22, -⟩ := perm_ok (n := n) qsort hq (seed + 6000000) (by omega)
  have h1 : n ≠ 1 := by omega
  obtain ⟨P, eP, Q, eQ, hl, hh, ho⟩ := solved (f := sharpRidge) (best := (0 : Vec n)) true hn (by simp [sharpRidge])
    sharpRidge_nonneg
    [.permutation p21, .blockRotation M, .permutation p11, .conditioning 10, .permutation p22, .blockRotation N,
      .permutation p12, .varsShift x, .normByDim, .objShift v] (by
      simp only [Transform.Spec.FitsAll, Transform.Spec.Fits, Transform.Spec.move, Transform.Spec.value]
      simp [h1, fun_zero, tosz_zero, hx]; omega)
  refine ⟨Q, v, ?_, ev, ?_⟩
  · unfold sharpRidgeProblem
    rw [ev, Res.ok_bind, ex, Res.ok_bind, eM, Res.ok_bind, eN, Res.ok_bind, ep11, Res.ok_bind, ep21, Res.ok_bind, ep12, Res.ok_bind, ep22, Res.ok_bind, eP, Res.ok_bind, eQ]
  · refine known_of ho (by simp [Transform.Spec.value, tosz_zero]) hl hh ?_
    intro i; simpa [Transform.Spec.move, Bbob.Spec.reach] using hx4 i

theorem differentPowersProblem_known : ∃ P v, differentPowersProblem qsort function inst seed n = .ok P ∧
    Legacy.computeFopt function inst = .ok v ∧ Bbob.Spec.KnownIn 4 P v := by
  obtain ⟨v, ev⟩ := fopt_ok function inst (by omega) hi
  obtain ⟨x, ex, hx4, hx⟩ := getXopt_ok .largescale seed (by omega) n
  obtain ⟨M, eM, hM, -⟩ := matrix_ok (seed + 1000000) (by omega) (by omega) hr.2
  obtain ⟨p1, ep1, -⟩ := perm_ok (n := n) qsort hq (seed + 2000000) (by omega)
  obtain ⟨p2, ep2, -⟩ := perm_ok (n := n) qsort hq (seed + 3000000) (by omega)
  have h1 : n ≠ 1 := by omega
  obtain ⟨P, eP, Q, eQ, hl, hh, ho⟩ := solved (f := differentPowers) (best := (0 : Vec n)) false hn (differentPowers_zero hn)
    (fun x => Real.sqrt_nonneg _)
    [.permutation p2, .blockRotation M, .permutation p1, .varsShift x, .normByDim, .objShift v] (by
      simp only [Transform.Spec.FitsAll, Transform.Spec.Fits, Transform.Spec.move, Transform.Spec.value]
      simp [h1, fun_zero, tosz_zero, hx]; omega)
  refine ⟨Q, v, ?_, ev, ?_⟩
  · unfold differentPowersProblem
    rw [ev, Res.ok_bind, ex, Res.ok_bind, eM, Res.ok_bind, ep1, Res.ok_bind, ep2, Res.ok_bind, eP, Res.ok_bind, eQ]
  · refine known_of ho (by simp [Transform.Spec.value, tosz_zero]) hl hh ?_
    intro i; simpa [Transform.Spec.move, Bbob.Spec.reach] using hx4 i

theorem rastriginProblem_known : ∃ P v, rastriginProblem qsort function inst seed n = .ok P ∧
    Legacy.computeFopt function inst = .ok v ∧ Bbob.Spec.KnownIn 4 P v := by
  obtain ⟨v, ev⟩ := fopt_ok function inst (by omega) hi
  obtain ⟨x, ex, hx4, hx⟩ := getXopt_ok .largescale seed (by omega) n
  obtain ⟨M, eM, hM, -⟩ := matrix_ok (seed + 1000000) (by omega) (by omega) hr.2
  obtain ⟨N, eN, hN, -⟩ := matrix_ok seed (by omega) (by omega) hr.1
  obtain ⟨p11, ep11, -⟩ := perm_ok (n := n) qsort hq (seed + 3000000) (by omega)
  obtain ⟨p12, ep12, -⟩ := perm_ok (n := n) qsort hq (seed + 4000000) (by omega)
  obtain ⟨p21, ep21, -⟩ := perm_ok (n := n) qsort hq (seed + 5000000) (by omega)
  obtain ⟨p22, ep22, -⟩ := perm_ok (n := n) qsort hq (seed + 6000000) (by omega)
  have h1 : n ≠ 1 := by omega
  obtain ⟨P, eP, Q, eQ, hl, hh, ho⟩ := solved (f := rastrigin) (best := (0 : Vec n)) false hn rastrigin_zero
    rastrigin_nonneg
    [.permutation p12, .blockRotation M, .permutation p11, .conditioning 10, .permutation p22, .blockRotation N,
      .permutation p21, .asymmetric 0.2, .oscillate, .permutation p12, .blockRotation M, .permutation p11,
      .varsShift x, .normByDim, .objShift v] (by
      simp only [Transform.Spec.FitsAll, Transform.Spec.Fits, Transform.Spec.move, Transform.Spec.value]
      simp [h1, fun_zero, tosz_zero, hx]; omega)
  refine ⟨Q, v, ?_, ev, ?_⟩
  · unfold rastriginProblem
    rw [ev, Res.ok_bind, ex, Res.ok_bind, eM, Res.ok_bind, eN, Res.ok_bind, ep11, Res.ok_bind, ep12, Res.ok_bind, ep21, Res.ok_bind, ep22, Res.ok_bind, eP, Res.ok_bind, eQ]
  · refine known_of ho (by simp [Transform.Spec.value, tosz_zero]) hl hh ?_
    intro i; simpa [Transform.Spec.move, Bbob.Spec.reach] using hx4 i

theorem weierstrassProblem_known : ∃ P v, weierstrassProblem qsort function inst seed n = .ok P ∧
    Legacy.computeFopt function inst = .ok v ∧ Bbob.Spec.KnownIn 4 P v := by
  obtain ⟨v, ev⟩ := fopt_ok function inst (by omega) hi
  obtain ⟨x, ex, hx4, hx⟩ := getXopt_ok .largescale seed (by omega) n
  obtain ⟨M, eM, hM, -⟩ := matrix_ok (seed + 1000000) (by omega) (by omega) hr.2
  obtain ⟨N, eN, hN, -⟩ := matrix_ok seed (by omega) (by omega) hr.1
  obtain ⟨p11, ep11, -⟩ := perm_ok (n := n) qsort hq (seed + 3000000) (by omega)
  obtain ⟨p21, ep21, -⟩ := perm_ok (n := n) qsort hq (seed + 4000000) (by omega)
  obtain ⟨p12, ep12, -⟩ := perm_ok (n := n) qsort hq (seed + 5000000) (by omega)
  obtain ⟨p22, ep22, -⟩ := perm_ok (n := n) qsort hq (seed + 6000000) (by omega)
  have h1 : n ≠ 1 := by omega
  obtain ⟨P, eP, Q, eQ, hl, hh, ho⟩ := solved (f := weierstrass) (best := (0 : Vec n)) false hn (weierstrass_zero hn)
    (weierstrass_nonneg hn)
    [.permutation p22, .blockRotation M, .permutation p12, .conditioning (1 / 100), .permutation p21, .blockRotation N,
      .permutation p11, .oscillate, .permutation p22, .blockRotation M, .permutation p12, .varsShift x,
      .penalize (10 / n), .objShift v] (by
      simp only [Transform.Spec.FitsAll, Transform.Spec.Fits, Transform.Spec.move, Transform.Spec.value]
      simp [h1, fun_zero, tosz_zero, hx]; try positivity; try norm_num)
  refine ⟨Q, v, ?_, ev, ?_⟩
  · unfold weierstrassProblem
    rw [ev, Res.ok_bind, ex, Res.ok_bind, eM, Res.ok_bind, eN, Res.ok_bind, ep11, Res.ok_bind, ep21, Res.ok_bind, ep12, Res.ok_bind, ep22, Res.ok_bind, eP, Res.ok_bind, eQ]
  · refine known_of ho (by simp [Transform.Spec.value, tosz_zero]) hl hh ?_
    intro i; simpa [Transform.Spec.move, Bbob.Spec.reach] using hx4 i

theorem schaffersProblem_known (c : ℝ) : ∃ P v, schaffersProblem qsort function inst seed c n = .ok P ∧
    Legacy.computeFopt function inst = .ok v ∧ Bbob.Spec.KnownIn 4 P v := by
  obtain ⟨v, ev⟩ := fopt_ok function inst (by omega) hi
  obtain ⟨x, ex, hx4, hx⟩ := getXopt_ok .largescale seed (by omega) n
  obtain ⟨M, eM, hM, -⟩ := matrix_ok (seed + 1000000) (by omega) (by omega) hr.2
  obtain ⟨N, eN, hN, -⟩ := matrix_ok seed (by omega) (by omega) hr.1
  obtain ⟨p11, ep11, -⟩ := perm_ok (n := n) qsort hq (seed + 3000000) (by omega)
  obtain ⟨p21, ep21, -⟩ := perm_ok (n := n) qsort hq (seed + 4000000) (by omega)
  obtain ⟨p12, ep12, -⟩ := perm_ok (n := n) qsort hq (seed + 5000000) (by omega)
  obtain ⟨p22, ep22, -⟩ := perm_ok (n := n) qsort hq (seed + 6000000) (by omega)
  have h1 : n ≠ 1 := by omega
  obtain ⟨P, eP, Q, eQ, hl, hh, ho⟩ := solved (f := schaffers) (best := (0 : Vec n)) true hn schaffers_zero
    (fun x => sq_nonneg _)
    [.conditioning c, .permutation p21, .blockRotation N, .permutation p11, .asymmetric 0.5, .permutation p22,
      .blockRotation M, .permutation p12, .varsShift x, .penalize 10, .objShift v] (by
      simp only [Transform.Spec.FitsAll, Transform.Spec.Fits, Transform.Spec.move, Transform.Spec.value]
      simp [h1, fun_zero, tosz_zero, hx]; try norm_num)
  refine ⟨Q, v, ?_, ev, ?_⟩
  · unfold schaffersProblem
    rw [ev, Res.ok_bind, ex, Res.ok_bind, eM, Res.ok_bind, eN, Res.ok_bind, ep11, Res.ok_bind, ep21, Res.ok_bind, ep12, Res.ok_bind, ep22, Res.ok_bind, eP, Res.ok_bind, eQ]
  · refine known_of ho (by simp [Transform.Spec.value, tosz_zero]) hl hh ?_
    intro i; simpa [Transform.Spec.move, Bbob.Spec.reach] using hx4 i

theorem katsuuraProblem_known : ∃ P v, katsuuraProblem qsort function inst seed n = .ok P ∧
    Legacy.computeFopt function inst = .ok v ∧ Bbob.Spec.KnownIn 4 P v := by
  obtain ⟨v, ev⟩ := fopt_ok function inst (by omega) hi
  obtain ⟨x, ex, hx4, hx⟩ := getXopt_ok .largescale seed (by omega) n
  obtain ⟨M, eM, hM, -⟩ := matrix_ok (seed + 1000000) (by omega) (by omega) hr.2
  obtain ⟨N, eN, hN, -⟩ := matrix_ok seed (by omega) (by omega) hr.1
  obtain ⟨p11, ep11, -⟩ := perm_ok (n := n) qsort hq (seed + 3000000) (by omega)
  obtain ⟨p12, ep12, -⟩ := perm_ok (n := n) qsort hq (seed + 4000000) (by omega)
  obtain ⟨p21, ep21, -⟩ := perm_ok (n := n) qsort hq (seed + 5000000) (by omega)
  obtain ⟨p22, ep22, -⟩ := perm_ok (n := n) qsort hq (seed + 6000000) (by omega)
  have h1 : n ≠ 1 := by omega
  obtain ⟨P, eP, Q, eQ, hl, hh, ho⟩ := solved (f := katsuura) (best := (0 : Vec n)) false hn katsuura_zero
    katsuura_nonneg
    [.permutation p22, .blockRotation M, .permutation p21, .conditioning 100, .permutation p12, .blockRotation N,
      .permutation p11, .varsShift x, .penalize 1, .objShift v] (by
      simp only [Transform.Spec.FitsAll, Transform.Spec.Fits, Transform.Spec.move, Transform.Spec.value]
      simp [h1, fun_zero, tosz_zero, hx]; try norm_num)
  refine ⟨Q, v, ?_, ev, ?_⟩
  · unfold katsuuraProblem
    rw [ev, Res.ok_bind, ex, Res.ok_bind, eM, Res.ok_bind, eN, Res.ok_bind, ep11, Res.ok_bind, ep12, Res.ok_bind, ep21, Res.ok_bind, ep22, Res.ok_bind, eP, Res.ok_bind, eQ]
  · refine known_of ho (by simp [Transform.Spec.value, tosz_zero]) hl hh ?_
    intro i; simpa [Transform.Spec.move, Bbob.Spec.reach] using hx4 i

theorem rosenbrockProblem_known : ∃ P v, rosenbrockProblem qsort function inst seed n = .ok P ∧
    Legacy.computeFopt function inst = .ok v ∧ Bbob.Spec.KnownIn 4 P v := by
  obtain ⟨v, ev⟩ := fopt_ok function inst (by omega) hi
  obtain ⟨x, ex, hx4, hx⟩ := getXopt_ok .largescale seed (by omega) n
  obtain ⟨N, eN, hN, -⟩ := matrix_ok seed (by omega) (by omega) hr.1
  obtain ⟨p1, ep1, -⟩ := perm_ok (n := n) qsort hq (seed + 2000000) (by omega)
  obtain ⟨p2, ep2, -⟩ := perm_ok (n := n) qsort hq (seed + 3000000) (by omega)
  obtain ⟨P, eP, Q, eQ, hl, hh, ho⟩ := solved (f := rosenbrock) (best := fun _ : Fin n => (1 : ℝ)) true hn rosenbrock_one
    rosenbrock_nonneg
    [.varsShift fun _ => -1, .varsScale 1, .permutation p2, .blockRotation N, .permutation p1,
      .varsShift fun i => x i * 0.75, .normByDim, .objShift v] (by
      simp only [Transform.Spec.FitsAll, Transform.Spec.Fits, Transform.Spec.move, Transform.Spec.value]
      simp [fun_zero]
      omega)
  refine ⟨Q, v, ?_, ev, ?_⟩
  · unfold rosenbrockProblem
    dsimp only
    rw [factor_one, ev, Res.ok_bind, ex, Res.ok_bind, eN, Res.ok_bind, ep1, Res.ok_bind, ep2, Res.ok_bind, eP,
      Res.ok_bind, eQ]
  · refine known_of ho (by simp [Transform.Spec.value]) hl hh ?_
    intro i
    have h := hx i
    simp only [List.foldl, Transform.Spec.move]
    norm_num
    constructor <;> linarith

omit hn' in
theorem griewankRosenbrockProblem_known (hn' : n ≤ 10 ^ 6) :
    ∃ P v, griewankRosenbrockProblem qsort function inst seed 10 n = .ok P ∧
    Legacy.computeFopt function inst = .ok v ∧ Bbob.Spec.KnownIn 4 P v := by
  obtain ⟨v, ev⟩ := fopt_ok function inst (by omega) hi
  obtain ⟨M, eM, hM, hM'⟩ := matrix_ok seed (by omega) (by omega) hr.1
  obtain ⟨p1, ep1, hp1⟩ := perm_ok (n := n) qsort hq (seed + 2000000) (by omega)
  obtain ⟨p2, ep2, -⟩ := perm_ok (n := n) qsort hq (seed + 3000000) (by omega)
  obtain ⟨P, eP, R, eR, hl, hh, ho⟩ := solved (f := griewankRosenbrock 10) (best := fun _ : Fin n => (1 : ℝ)) false hn
    (griewankRosenbrock_one 10 hn) (griewankRosenbrock_nonneg (by norm_num) hn)
    [.varsShift fun _ => -0.5, .varsScale 1, .permutation p2] (by
      simp [Transform.Spec.FitsAll, Transform.Spec.Fits, Transform.Spec.move])
  have h1 : Transform.Spec.Optimal { blockRotation M R with bestParam := some fun j => (∑ i, M i j) / 2 }
      (fun j => (∑ i, M i j) / 2) 0 := by
    refine optimal_vars ho (fun x i => ∑ j, M i j * x j) rfl rfl (fun x => rfl) ?_
    funext i
    simp only [List.foldl, Transform.Spec.move]
    rw [← Finset.sum_congr rfl fun j _ => mul_comm _ (M i j), row_product hM i]
    norm_num
  have h2 : Transform.Spec.Optimal { permutation p1 (blockRotation M R) with
      bestParam := some (scatter p1 fun j => (∑ i, M i j) / 2) } (scatter p1 fun j => (∑ i, M i j) / 2) 0 :=
    optimal_vars h1 (fun x i => x (p1 i)) rfl rfl (fun x => rfl) (funext fun i => scatter_image hp1 _ i)
  obtain ⟨Q, eQ, hQl, hQh, hQ⟩ := create_optimal (.objShift v) _ _ _ h2 trivial
  refine ⟨Q, v, ?_, ev, known_of hQ ?_ (hQl.trans hl) (hQh.trans hh) ?_⟩
  · unfold griewankRosenbrockProblem
    dsimp only
    have e : chain [.varsShift fun _ => -0.5, .varsScale 1, .permutation p2, .blockRotation M, .permutation p1,
        .objShift v] P = (chain [.varsShift fun _ => -0.5, .varsScale 1, .permutation p2] P).bind
          fun R => chain [.blockRotation M, .permutation p1, .objShift v] R := rfl
    rw [factor_one, ev, Res.ok_bind, eM, Res.ok_bind, ep1, Res.ok_bind, ep2, Res.ok_bind, eP, Res.ok_bind, e, eR,
      Res.ok_bind, mul_one, ← eQ]
    rfl
  · simp [Transform.Spec.value]
  · intro k
    obtain ⟨i, rfl⟩ := Finite.surjective_of_injective hp1 k
    show -4 ≤ scatter p1 _ (p1 i) ∧ scatter p1 _ (p1 i) ≤ 4
    rw [scatter_image hp1]
    have := abs_le.1 (hM' i)
    constructor <;> linarith

end

/-! ### Function 7 -/

theorem optimal_of_evals {P : Prob n} {F : Vec n → ℝ} {p : Vec n} {w : ℝ} (h : Evals P F w)
    (hp : P.bestParam = some p) (he : F p = w) (hm : ∀ x, w ≤ F x) : Transform.Spec.Optimal P p w :=
  ⟨hp, h.value, by rw [h.eval, he], fun x => ⟨_, h.eval x, hm x⟩⟩

theorem stepBasic_evals (z : ℝ) : Evals (stepBasic z) (stepCore z (n := n)) 0 := by
  have h : ∀ x : Vec n, (0 : ℝ) ≤ stepCore z x + 1 / 10 ^ 13 := fun x => by
    have := stepCore_nonneg z x
    positivity
  refine ⟨by simp [stepBasic, stepCore_zero], fun x => ?_, h⟩
  show check (some (stepCore 0 0)) _ = _
  rw [stepCore_zero, check_near (h x)]

theorem roundStep_optimal (h0 : 0 < n) (p q : Fin n → Fin n) (M : Fin n → Fin n → ℝ) :
    Transform.Spec.Optimal (roundStep h0 10 fun z => permutation p (blockRotation M (permutation q (stepBasic z)))) 0 0 := by
  have h1 : ∀ z, Evals (permutation p (blockRotation M (permutation q (stepBasic z)))) (fun x : Vec n =>
      stepCore z fun i => ∑ j, M (q i) j * x (p j)) 0 := fun z =>
    (((stepBasic_evals z).via (Q := permutation q (stepBasic z)) (fun x i => x (q i)) rfl fun _ => rfl).via
      (Q := blockRotation M (permutation q (stepBasic z))) (fun x i => ∑ j, M i j * x j) rfl fun _ => rfl).via
      (Q := permutation p (blockRotation M (permutation q (stepBasic z)))) (fun x i => x (p i)) rfl fun _ => rfl
  have h2 : Evals (roundStep h0 10 fun z => permutation p (blockRotation M (permutation q (stepBasic z))))
      (fun x : Vec n => stepCore (|x ⟨0, h0⟩| * n) fun i => ∑ j, M (q i) j * roundCoordinate 10 (x (p j))) 0 := by
    refine ⟨(h1 0).value, fun x => ?_, fun x => ?_⟩
    · unfold roundStep Transform.via
      dsimp only
      rw [(h1 _).eval, Res.ok_bind, (h1 _).value]
      exact check_ok (stepCore_nonneg _ _)
    · have := stepCore_nonneg (|x ⟨0, h0⟩| * n) fun i => ∑ j, M (q i) j * roundCoordinate 10 (x (p j))
      positivity
  refine optimal_of_evals h2 ?_ ?_ fun x => stepCore_nonneg _ _
  · have e : (permutation p (blockRotation M (permutation q (stepBasic 0)))).bestParam = some 0 := by
      show (if bestNotZero (some (0 : Vec n)) then none else some (0 : Vec n)) = _
      rw [bestNotZero_some, if_neg zero_not_visible]
    show Option.map _ (permutation p (blockRotation M (permutation q (stepBasic 0)))).bestParam = _
    rw [e, Option.map_some]
    congr 1
    funext i
    exact roundCoordinate_zero 10
  · have e : (fun i : Fin n => ∑ j, M (q i) j * roundCoordinate 10 ((0 : Vec n) (p j))) = 0 := by
      funext i
      simp [roundCoordinate_zero]
    rw [e]
    simp [stepCore_zero]

/-! ### Functions 21 and 22 -/

theorem subProblem_evals : Evals (subProblem (n := n)) sphere 0 :=
  ⟨rfl, fun _ => rfl, fun x => by have := sphere_nonneg x; positivity⟩

theorem peakProblem_ok (qsort : Permutation.SortFn) (hq : Permutation.Spec.IsSort qsort) (hn : 2 ≤ n) (seed : Int)
    (peak : Nat) (hs : (seed + 1000 * peak).natAbs < 2 ^ 31 * 127773) (alpha : ℝ) (y : Vec n) :
    ∃ (P : Prob n) (F : Vec n → ℝ), peakProblem qsort seed peak alpha y = .ok P ∧ (∀ x, P.eval x = .ok (F x)) ∧ (∀ x, 0 ≤ F x) ∧ F y = 0 := by
  obtain ⟨us, eu, hlu, -⟩ := Legacy.C44_range n _ hs
  obtain ⟨l, el, hl, -⟩ := Permutation.C49_from_sequence qsort hq (us.map fun u : ℚ => (u : ℝ)) (by
    intro h
    have := congrArg List.length h
    rw [List.length_map, hlu, List.length_nil] at this
    omega)
  rw [List.length_map, hlu] at hl
  obtain ⟨hlt, -⟩ := perm_list hl
  have h1 : n ≠ 1 := by omega
  let c := 1 / Real.sqrt (Real.sqrt (Real.sqrt alpha))
  let q : Fin n → Fin n := fun i => ⟨l.getD i n, hlt i⟩
  have h := (((subProblem_evals.via (Q := varsScale c subProblem) (fun x i => c * x i) rfl fun _ => rfl).via
    (Q := Transform.conditioning (Real.sqrt alpha) (varsScale c subProblem))
    (fun x i => Real.sqrt alpha ^ (0.5 * (i : ℝ) / ((n : ℝ) - 1)) * x i) rfl fun _ => if_neg h1).via
    (Q := inversePermutation q (Transform.conditioning (Real.sqrt alpha) (varsScale c subProblem))) (scatter q) rfl
    fun _ => rfl).via
    (Q := varsShift y (inversePermutation q (Transform.conditioning (Real.sqrt alpha) (varsScale c subProblem))))
    (fun x i => x i - y i) rfl fun _ => rfl
  refine ⟨varsShift y (inversePermutation q (Transform.conditioning (Real.sqrt alpha) (varsScale c subProblem))), _,
    ?_, h.eval, fun x => sphere_nonneg _, ?_⟩
  · unfold peakProblem
    rw [eu, Res.ok_bind, el, Res.ok_bind, dif_pos hlt, Res.ok_bind]
    rfl
  · have e : (fun i => y i - y i) = (0 : Vec n) := funext fun i => sub_self _
    dsimp only
    rw [e, scatter_zero]
    simp [sphere]

theorem peakProblems_ok (qsort : Permutation.SortFn) (hq : Permutation.Spec.IsSort qsort) (hn : 2 ≤ n) (seed : Int)
    (hs : ∀ k : Nat, k ≤ 200 → (seed + 1000 * k).natAbs < 2 ^ 31 * 127773) (alpha : Nat → ℝ) (y : Nat → Vec n) :
    ∀ k i, i + k ≤ 200 → ∃ Ps : List (Prob n), ∃ Fs : List (Vec n → ℝ), peakProblems qsort seed alpha y k i = .ok Ps ∧
      Ps.length = k ∧ List.Forall₂ (fun P F => (∀ x, P.eval x = .ok (F x)) ∧ ∀ x, 0 ≤ F x) Ps Fs ∧
      ∀ F ∈ Fs.head?, F (y i) = 0 := by
  intro k
  induction k with
  | zero => intro i _; exact ⟨[], [], rfl, rfl, .nil, by simp⟩
  | succ k ih =>
    intro i hi
    obtain ⟨P, F, e, h1, h2, h3⟩ := peakProblem_ok qsort hq hn seed i (hs i (by omega)) (alpha i) (y i)
    obtain ⟨Ps, Fs, e', hl, h, -⟩ := ih (i + 1) (by omega)
    refine ⟨P :: Ps, F :: Fs, ?_, by simp [hl], .cons ⟨h1, h2⟩ h, by simpa using h3⟩
    unfold peakProblems
    rw [e, Res.ok_bind, e', Res.ok_bind]

theorem exp_le (hn : 2 ≤ n) {w y : ℝ} (hw : 0 ≤ w ∧ w ≤ 10) (hy : 0 ≤ y) :
    w * Real.exp (-1 / (2 * (n : ℝ)) * y) ≤ 10 := by
  have : Real.exp (-1 / (2 * (n : ℝ)) * y) ≤ 1 := by
    rw [Real.exp_le_one_iff]
    refine mul_nonpos_of_nonpos_of_nonneg (div_nonpos_of_nonpos_of_nonneg (by norm_num) (by positivity)) hy
  calc _ ≤ w * 1 := mul_le_mul_of_nonneg_left this hw.1
    _ ≤ 10 := by linarith [hw.2]

theorem peakLoop_ok (hn : 2 ≤ n) (peaks : Nat) (x : Vec n) (Ps : List (Prob n)) (Fs : List (Vec n → ℝ))
    (h : List.Forall₂ (fun P F => (∀ x, P.eval x = .ok (F x)) ∧ ∀ x, 0 ≤ F x) Ps Fs)
    (hw : ∀ i < peaks, 0 ≤ weight peaks i ∧ weight peaks i ≤ 10) :
    ∀ i maxf, 1 ≤ i → i + Ps.length ≤ peaks → maxf ≤ 10 →
      ∃ m, peakLoop peaks x Ps i maxf = .ok m ∧ maxf ≤ m ∧ m ≤ 10 := by
  induction h with
  | nil => intro i maxf _ _ hm; exact ⟨maxf, rfl, le_rfl, hm⟩
  | @cons P F Ps Fs hP hPs ih =>
    intro i maxf hi hlen hm
    rw [List.length_cons] at hlen
    have he := exp_le hn (hw i (by omega)) (hP.2 x)
    unfold peakLoop
    rw [hP.1, Res.ok_bind]
    dsimp only
    by_cases hc : i = 0 ∨ maxf < weight peaks i * Real.exp (-1 / (2 * (n : ℝ)) * F x)
    · rw [if_pos hc]
      obtain ⟨m, e, h1, h2⟩ := ih (i + 1) _ (by omega) (by omega) he
      rcases hc with hc | hc
      · omega
      · exact ⟨m, e, hc.le.trans h1, h2⟩
    · rw [if_neg hc]
      exact ih (i + 1) _ (by omega) (by omega) hm

theorem weight_bounds {peaks : Nat} (hp : 21 ≤ peaks) (i : Nat) (hi : i < peaks) :
    0 ≤ weight peaks i ∧ weight peaks i ≤ 10 := by
  have h21 : (21 : ℝ) ≤ peaks := by exact_mod_cast hp
  unfold weight
  split_ifs with h0
  · norm_num
  · have h1 : (1 : ℝ) ≤ i := by exact_mod_cast Nat.one_le_iff_ne_zero.2 h0
    have h2 : (i : ℝ) + 1 ≤ peaks := by exact_mod_cast hi
    have h3 : 0 ≤ 8 * ((i : ℝ) + 1 - 2) / ((peaks : ℝ) - 2) := div_nonneg (by linarith) (by linarith)
    have h4 : 8 * ((i : ℝ) + 1 - 2) / ((peaks : ℝ) - 2) ≤ 8 := by
      rw [div_le_iff₀ (by linarith)]
      linarith
    norm_num at *
    constructor <;> linarith

theorem gallagherCore_ok (hn : 2 ≤ n) (subs : List (Prob n)) (Fs : List (Vec n → ℝ)) (y : Vec n)
    (h : List.Forall₂ (fun P F => (∀ x, P.eval x = .ok (F x)) ∧ ∀ x, 0 ≤ F x) subs Fs) (h21 : 21 ≤ subs.length)
    (hy : ∀ F ∈ Fs.head?, F y = 0) :
    ∃ G : Vec n → ℝ, (∀ x, gallagherCore subs x = .ok (G x)) ∧ (∀ x, 0 ≤ G x) ∧ G y = 0 := by
  cases h with
  | nil => simp at h21
  | @cons P F Ps Fs hP hPs =>
    have hF : F y = 0 := hy F (by simp)
    have key : ∀ x, ∃ g, gallagherCore (P :: Ps) x = .ok g ∧ 0 ≤ g ∧ g ≤ 10 - 10 * Real.exp (-1 / (2 * (n : ℝ)) * F x) := by
      intro x
      have hw := weight_bounds h21
      have he := exp_le hn (w := 10) (by norm_num) (hP.2 x)
      obtain ⟨m, e, h1, h2⟩ := peakLoop_ok hn (P :: Ps).length x Ps Fs hPs hw 1 _ le_rfl (by simp; omega) he
      refine ⟨10 - m, ?_, by linarith, by linarith⟩
      unfold gallagherCore peakLoop
      rw [hP.1, Res.ok_bind]
      dsimp only
      rw [if_pos (Or.inl rfl), show weight (P :: Ps).length 0 = 10 from if_pos rfl, e, Res.ok_bind]
    choose G h1 h2 h3 using key
    refine ⟨G, h1, h2, le_antisymm ?_ (h2 y)⟩
    have := h3 y
    rw [hF, mul_zero, Real.exp_zero] at this
    linarith

section
variable (qsort : Permutation.SortFn) (hq : Permutation.Spec.IsSort qsort) (function inst : Nat) (hf : function ≤ 24)
  (hi : inst ≤ 10 ^ 10) (seed : Int) (hs : 0 ≤ seed ∧ seed ≤ 10 ^ 14 + 24) (hn : 2 ≤ n) (hn' : n ≤ 10 ^ 6)
  (hr : Spec.Regular seed n ∧ Spec.Regular (seed + 1000000) n)

include hq hf hi hs hn hn' hr

theorem stepEllipsoidProblem_known : ∃ P v, stepEllipsoidProblem qsort function inst seed n = .ok P ∧
    Legacy.computeFopt function inst = .ok v ∧ Bbob.Spec.KnownIn 4 P v := by
  obtain ⟨v, ev⟩ := fopt_ok function inst (by omega) hi
  obtain ⟨x, ex, hx4, hx⟩ := getXopt_ok .largescale seed (by omega) n
  obtain ⟨M, eM, hM, -⟩ := matrix_ok (seed + 1000000) (by omega) (by omega) hr.2
  obtain ⟨N, eN, hN, -⟩ := matrix_ok seed (by omega) (by omega) hr.1
  obtain ⟨p11, ep11, -⟩ := perm_ok (n := n) qsort hq (seed + 2000000) (by omega)
  obtain ⟨p12, ep12, -⟩ := perm_ok (n := n) qsort hq (seed + 3000000) (by omega)
  obtain ⟨p21, ep21, -⟩ := perm_ok (n := n) qsort hq (seed + 4000000) (by omega)
  obtain ⟨p22, ep22, -⟩ := perm_ok (n := n) qsort hq (seed + 5000000) (by omega)
  have h1 : n ≠ 1 := by omega
  have h0 : 0 < n := by omega
  obtain ⟨Q, eQ, hl, hh, ho⟩ := C54_transformations [.conditioning 10, .permutation p12, .blockRotation N,
    .permutation p11, .varsShift x, .normByDim, .penalize 1, .objShift v] _ _ _ (roundStep_optimal h0 p21 p22 M) (by
      simp only [Transform.Spec.FitsAll, Transform.Spec.Fits, Transform.Spec.move, Transform.Spec.value]
      refine ⟨⟨trivial, h1⟩, fun _ => rfl, trivial, fun _ => rfl, trivial, ⟨h0, Or.inr trivial⟩, ⟨zero_le_one, fun i => ?_⟩,
        trivial, trivial⟩
      show (-5 : ℝ) < 5 ∧ -5 ≤ 0 + x i ∧ 0 + x i ≤ 5
      rw [zero_add]
      exact ⟨by norm_num, hx i⟩)
  refine ⟨Q, v, ?_, ev, ?_⟩
  · unfold stepEllipsoidProblem
    rw [ev, Res.ok_bind, ex, Res.ok_bind, eM, Res.ok_bind, eN, Res.ok_bind, ep11, Res.ok_bind, ep12, Res.ok_bind,
      ep21, Res.ok_bind, ep22, Res.ok_bind, dif_pos h0, eQ]
  · refine known_of ho (by simp [Transform.Spec.value]) hl hh ?_
    intro i; simpa [Transform.Spec.move, Bbob.Spec.reach] using hx4 i

theorem gallagherProblem_known (peaks : Nat) (hp : peaks = 101 ∨ peaks = 21) :
    ∃ P v, gallagherProblem qsort function inst seed peaks n = .ok P ∧
    Legacy.computeFopt function inst = .ok v ∧ Bbob.Spec.KnownIn 4 P v := by
  obtain ⟨v, ev⟩ := fopt_ok function inst (by omega) hi
  obtain ⟨N, eN, hN, -⟩ := matrix_ok seed (by omega) (by omega) hr.1
  obtain ⟨us, eu, hlu, -⟩ := Legacy.C44_range (peaks - 1) seed (by omega)
  obtain ⟨l, el, -, -⟩ := Permutation.C49_from_sequence qsort hq (us.map fun u : ℚ => (u : ℝ)) (by
    intro h
    have := congrArg List.length h
    rw [List.length_map, hlu, List.length_nil] at this
    omega)
  obtain ⟨rs, er, hlr, hrs⟩ := Legacy.C44_range (n * peaks) seed (by omega)
  have hsel : ∃ m b c : ℝ, 0 < b ∧ b = 2 * c ∧ c ≤ 5 ∧ (if peaks = 101 then Res.ok ((1000, 10, 5) : ℝ × ℝ × ℝ)
      else if peaks = 21 then Res.ok ((1000 * 1000, 9.8, 4.9) : ℝ × ℝ × ℝ) else Res.error) = .ok (m, b, c) := by
    rcases hp with rfl | rfl
    · exact ⟨1000, 10, 5, by norm_num, by norm_num, by norm_num, if_pos rfl⟩
    · exact ⟨1000 * 1000, 9.8, 4.9, by norm_num, by norm_num, by norm_num, by rw [if_neg (by omega), if_pos rfl]⟩
  obtain ⟨m, b, c, hb, hbc, hc, esel⟩ := hsel
  let alpha : Nat → ℝ := fun peak => if peak = 0 then m else
    ((List.range (peaks - 1)).map fun i : Nat => (1000 : ℝ) ^ (2 * (i : ℝ) / ((peaks : ℝ) - 2))).getD (l.getD (peak - 1) 0) 1
  let before : Nat → Vec n := fun peak i =>
    if peak = 0 then (b * ((rs.getD (i + peak * n) 0 : ℚ) : ℝ) - c) * 0.8 else b * ((rs.getD (i + peak * n) 0 : ℚ) : ℝ) - c
  let y : Nat → Vec n := fun peak i => ∑ j, N i j * before peak j
  obtain ⟨subs, Fs, es, hlen, hFs, hhead⟩ := peakProblems_ok qsort hq hn seed (fun k hk => by omega) alpha y peaks 0
    (by omega)
  obtain ⟨G, hG, hG0, hGy⟩ := gallagherCore_ok hn subs Fs (y 0) hFs (by omega) hhead
  let base : Prob n :=
    { eval := fun x => (gallagherCore subs x).bind fun v => check (some 0) v
      lo := fun _ => -5
      hi := fun _ => 5
      bestParam := some 0
      bestValue := some 0 }
  have hbase : Evals base G 0 := by
    refine ⟨rfl, fun x => ?_, fun x => by have := hG0 x; positivity⟩
    show (gallagherCore subs x).bind _ = _
    rw [hG, Res.ok_bind, check_ok (hG0 x)]
  have hbound : ∀ i, -4 ≤ before 0 i ∧ before 0 i ≤ 4 := by
    intro i
    have hlt : i.1 + 0 * n < rs.length := by
      rw [hlr]
      have : n * 1 ≤ n * peaks := Nat.mul_le_mul_left n (by omega)
      omega
    show -4 ≤ (b * ((rs.getD (i + 0 * n) 0 : ℚ) : ℝ) - c) * 0.8 ∧ (b * ((rs.getD (i + 0 * n) 0 : ℚ) : ℝ) - c) * 0.8 ≤ 4
    rw [List.getD_eq_getElem _ _ hlt]
    obtain ⟨h1, h2⟩ := hrs _ (List.getElem_mem hlt)
    have h1' : (0 : ℝ) < ((rs[i.1 + 0 * n] : ℚ) : ℝ) := by exact_mod_cast h1
    have h2' : ((rs[i.1 + 0 * n] : ℚ) : ℝ) < 1 := by exact_mod_cast h2
    generalize ((rs[i.1 + 0 * n] : ℚ) : ℝ) = u at h1' h2'
    have h3 := mul_pos hb h1'
    have h4 := mul_lt_mul_of_pos_left h2' hb
    constructor <;> norm_num <;> linarith
  have hrot : Transform.Spec.Optimal { blockRotation N base with bestParam := some (before 0) } (before 0) 0 := by
    have hE : Evals { blockRotation N base with bestParam := some (before 0) } (fun x => G fun i => ∑ j, N i j * x j) 0 :=
      hbase.via (fun x i => ∑ j, N i j * x j) rfl fun _ => rfl
    exact optimal_of_evals hE rfl hGy fun x => hG0 _
  obtain ⟨Q, eQ, hl, hh, ho⟩ := C54_transformations [.objOscillate, .objPower 2, .penalize 1, .objShift v] _ _ _ hrot (by
      simp only [Transform.Spec.FitsAll, Transform.Spec.Fits, Transform.Spec.move, Transform.Spec.value]
      refine ⟨trivial, ⟨by norm_num, by rw [tosz_zero]⟩, ⟨zero_le_one, fun i => ?_⟩, trivial, trivial⟩
      exact ⟨(by norm_num : (-5 : ℝ) < 5), (by norm_num : (-5 : ℝ) ≤ -4).trans (hbound i).1, (hbound i).2.trans (by norm_num : (4 : ℝ) ≤ 5)⟩)
  refine ⟨Q, v, ?_, ev, ?_⟩
  · unfold gallagherProblem
    rw [ev, Res.ok_bind, esel, Res.ok_bind]
    dsimp only
    rw [eN, Res.ok_bind, eu, Res.ok_bind, el, Res.ok_bind, er, Res.ok_bind]
    have e1 := hG (y 0)
    rw [hGy] at e1
    change (peakProblems qsort seed alpha y peaks 0).bind _ = _
    rw [es, Res.ok_bind]
    change (gallagherCore subs (y 0)).bind _ = _
    rw [e1, Res.ok_bind, ← eQ]
    rfl
  · refine known_of ho (by simp [Transform.Spec.value, tosz_zero]) hl hh ?_
    intro i; simpa [Transform.Spec.move] using hbound i

/-! ### Function 24 -/

theorem lunacekProblem_known (hn3 : n < 3000) : ∃ P v, lunacekProblem qsort function inst seed n = .ok P ∧
    Legacy.computeFopt function inst = .ok v ∧ Bbob.Spec.KnownIn 4 P v := by
  obtain ⟨v, ev⟩ := fopt_ok function inst (by omega) hi
  obtain ⟨M, eM, hM, -⟩ := matrix_ok (seed + 1000000) (by omega) (by omega) hr.2
  obtain ⟨N, eN, hN, -⟩ := matrix_ok seed (by omega) (by omega) hr.1
  obtain ⟨p11, ep11, -⟩ := perm_ok (n := n) qsort hq (seed + 3000000) (by omega)
  obtain ⟨p12, ep12, -⟩ := perm_ok (n := n) qsort hq (seed + 4000000) (by omega)
  obtain ⟨p21, ep21, -⟩ := perm_ok (n := n) qsort hq (seed + 5000000) (by omega)
  obtain ⟨p22, ep22, -⟩ := perm_ok (n := n) qsort hq (seed + 6000000) (by omega)
  obtain ⟨g, eg, -⟩ := Permutation.gauss_exists n hn3 seed (by omega)
  have h1 : n ≠ 1 := by omega
  have h0 : 0 < n := by omega
  have hpos := lunacek_s_pos hn
  generalize hs' : 1 - 0.5 / (Real.sqrt ((n : ℝ) + 20) - 4.1) = s at hpos
  let mu1 : ℝ := -Real.sqrt ((2.5 * 2.5 - 1) / s)
  let sign : Vec n := fun i => if g.getD i 0 < 0 then -1 else 1
  have hsign : ∀ i, sign i = -1 ∨ sign i = 1 := fun i => by
    show (if _ then (-1 : ℝ) else 1) = -1 ∨ (if _ then (-1 : ℝ) else 1) = 1
    split_ifs <;> simp
  let sub0 : Prob n := varsShift (fun _ => 2.5) subProblem
  let sub1 : Prob n := objShift (1 * (n : ℝ)) (objScale s (varsShift (fun _ => mu1) subProblem))
  have hsub0 : ∀ x, sub0.eval x = .ok (sphere fun i => x i - 2.5) :=
    (subProblem_evals.via (Q := sub0) (fun x i => x i - 2.5) rfl fun _ => rfl).eval
  have hsub1' := subProblem_evals.via (Q := varsShift (fun _ => mu1) (subProblem (n := n))) (fun x i => x i - mu1) rfl
    fun _ => rfl
  have hsub1 : ∀ x, sub1.eval x = .ok (sphere (fun i => x i - mu1) * s + 1 * n) := by
    intro x
    have h := hsub1'.eval x
    have h3 : 0 ≤ sphere (fun i => x i - mu1) * s := mul_nonneg (sphere_nonneg _) hpos.le
    have e : (objScale s (varsShift (fun _ => mu1) (subProblem (n := n)))).eval x =
        .ok (sphere (fun i => x i - mu1) * s) := by
      show ((varsShift (fun _ => mu1) (subProblem (n := n))).eval x).bind _ = _
      rw [h, Res.ok_bind]
      exact check_ok (by dsimp only; rw [zero_mul]; exact h3)
    show ((objScale s (varsShift (fun _ => mu1) (subProblem (n := n)))).eval x).bind _ = _
    rw [e, Res.ok_bind]
    exact check_ok (by dsimp only; rw [zero_mul]; linarith)
  let core : Vec n → Vec n → ℝ := fun xh x => ((n : ℝ) - ∑ i, Real.cos (2 * Real.pi * x i)) * 10 +
    min (sphere fun i => xh i - 2.5) (sphere (fun i => xh i - mu1) * s + 1 * n)
  have hmin : ∀ xh : Vec n, 0 ≤ min (sphere fun i => xh i - 2.5) (sphere (fun i => xh i - mu1) * s + 1 * n) := fun xh =>
    le_min (sphere_nonneg _) (add_nonneg (mul_nonneg (sphere_nonneg _) hpos.le) (by positivity))
  have hcore : ∀ xh x, 0 ≤ core xh x := fun xh x => by
    have h := sum_cos_le (fun i => 2 * Real.pi * x i)
    exact add_nonneg (mul_nonneg (by linarith) (by norm_num)) (hmin xh)
  have hbasic : ∀ xh, Evals (lunacekBasic sub0 sub1 xh) (core xh) 0 := by
    intro xh
    refine ⟨rfl, fun x => ?_, fun x => by have := hcore xh x; positivity⟩
    show (lunacekCore sub0 sub1 xh x).bind _ = _
    unfold lunacekCore
    rw [hsub0, Res.ok_bind, hsub1, Res.ok_bind, Res.ok_bind]
    exact check_ok (hcore xh x)
  let inner : Vec n → Prob n := fun x_hat =>
    varsShift (fun _ => 2.5) (permutation p11 (blockRotation N (permutation p12 (Transform.conditioning 100
      (permutation p21 (blockRotation M (permutation p22 (lunacekBasic sub0 sub1 x_hat))))))))
  have hlin : ∃ L : Vec n → Vec n, L 0 = 0 ∧ ∀ xh, Evals (inner xh) (fun x => core xh (L fun i => x i - 2.5)) 0 := by
    refine ⟨fun x i => ∑ j, M (p22 i) j * ((100 : ℝ) ^ (0.5 * ((p21 j : Fin n) : ℝ) / ((n : ℝ) - 1)) *
      ∑ k, N (p12 (p21 j)) k * x (p11 k)), ?_, fun xh => ?_⟩
    · funext i
      simp
    · have c1 := fun {P : Prob n} {F : Vec n → ℝ} (q : Fin n → Fin n) (h : Evals P F 0) =>
        h.via (Q := permutation q P) (fun x i => x (q i)) rfl fun _ => rfl
      have c2 := fun {P : Prob n} {F : Vec n → ℝ} (M : Fin n → Fin n → ℝ) (h : Evals P F 0) =>
        h.via (Q := blockRotation M P) (fun x i => ∑ j, M i j * x j) rfl fun _ => rfl
      have c3 := fun {P : Prob n} {F : Vec n → ℝ} (h : Evals P F 0) =>
        h.via (Q := Transform.conditioning 100 P) (fun x i => (100 : ℝ) ^ (0.5 * (i : ℝ) / ((n : ℝ) - 1)) * x i) rfl
          fun _ => if_neg h1
      exact (c1 p11 (c2 N (c1 p12 (c3 (c1 p21 (c2 M (c1 p22 (hbasic xh)))))))).via (Q := inner xh)
        (fun x i => x i - 2.5) rfl fun _ => rfl
  obtain ⟨L, hL, hinner⟩ := hlin
  have hx : Evals (xHatGeneric sign inner) (fun x => core (fun i => 2 * sign i * x i) (L fun i => 2 * sign i * x i - 2.5))
      0 := by
    refine ⟨(hinner 0).value, fun x => ?_, fun x => by
      have := hcore (fun i => 2 * sign i * x i) (L fun i => 2 * sign i * x i - 2.5); positivity⟩
    unfold xHatGeneric Transform.via
    dsimp only
    rw [(hinner _).eval, Res.ok_bind, (hinner _).value]
    exact check_ok (hcore _ _)
  let best : Vec n := fun i => 0.5 * 2.5 * sign i
  have hopt : Transform.Spec.Optimal { xHatGeneric sign inner with bestParam := some best } best 0 := by
    have hx' : Evals { xHatGeneric sign inner with bestParam := some best } _ 0 := ⟨hx.value, hx.eval, hx.above⟩
    refine optimal_of_evals hx' rfl ?_ fun x => hcore _ _
    have e : ∀ i, 2 * sign i * best i = 2.5 := fun i => by
      show 2 * sign i * (0.5 * 2.5 * sign i) = 2.5
      rcases hsign i with e | e <;> rw [e] <;> norm_num
    have e' : (fun i => 2 * sign i * best i - 2.5) = (0 : Vec n) := funext fun i => by rw [e i]; simp
    rw [e', hL]
    have h3 := hmin fun i => 2 * sign i * best i
    simp only [e] at h3 ⊢
    show ((n : ℝ) - ∑ i : Fin n, Real.cos (2 * Real.pi * (0 : Vec n) i)) * 10 + min _ _ = 0
    have hs0 : sphere (fun _ : Fin n => (2.5 : ℝ) - 2.5) = 0 := by simp [sphere]
    rw [hs0, min_eq_left]
    · simp
    · rw [hs0] at h3
      exact h3.trans (min_le_right _ _)
  obtain ⟨Q, eQ, hl, hh, ho⟩ := C54_transformations [.normByDim, .penalize (10 ^ 4), .objShift v] _ _ _ hopt (by
      simp only [Transform.Spec.FitsAll, Transform.Spec.Fits, Transform.Spec.move, Transform.Spec.value]
      refine ⟨⟨h0, Or.inr trivial⟩, ⟨by norm_num, fun i => ⟨(by norm_num : (-5 : ℝ) < 5), ?_⟩⟩, trivial, trivial⟩
      show -5 ≤ 0.5 * 2.5 * sign i ∧ 0.5 * 2.5 * sign i ≤ 5
      rcases hsign i with e | e <;> rw [e] <;> norm_num)
  refine ⟨Q, v, ?_, ev, ?_⟩
  · unfold lunacekProblem
    dsimp only
    rw [hs', ev, Res.ok_bind, eM, Res.ok_bind, eN, Res.ok_bind, ep11, Res.ok_bind, ep12, Res.ok_bind, ep21, Res.ok_bind,
      ep22, Res.ok_bind, eg, Res.ok_bind, ← eQ]
    rfl
  · refine known_of ho (by simp [Transform.Spec.value]) hl hh ?_
    intro i
    show -4 ≤ 0.5 * 2.5 * sign i ∧ 0.5 * 2.5 * sign i ≤ 4
    rcases hsign i with e | e <;> rw [e] <;> norm_num

end

/-! ### The theorems -/

theorem seed_range {function inst : Nat} (hf : function ≤ 24) (hi : inst ≤ 10 ^ 10) :
    0 ≤ Bbob.Spec.seed function inst ∧ Bbob.Spec.seed function inst ≤ 10 ^ 14 + 24 := by
  unfold Bbob.Spec.seed
  split_ifs <;> omega

/-- C87: for every function but Schwefel's (number 20), every instance and every dimension from 2 to a million (2999 for
function 24), the large-scale problem can be created, its recorded best parameter lies in `[-4, 4]` (for the linear slope, number 5,
in `[-5, 5]`) in every coordinate and has the recorded best value, which is the value computed from function and instance, and every point can be
evaluated and has no smaller value. The functions with rotations need regular random matrices for the blocks. -/
theorem C87_optimum (qsort : Permutation.SortFn) (hq : Permutation.Spec.IsSort qsort) (function inst n : Nat)
    (h1 : 1 ≤ function) (hf : function ≤ 24) (h20 : function ≠ 20) (hi : inst ≤ 10 ^ 10) (hn : 2 ≤ n)
    (hn' : n ≤ 10 ^ 6) (h24 : function = 24 → n < 3000)
    (hr : Bbob.Spec.Rotated function → Spec.Regular (Bbob.Spec.seed function inst) n ∧
      Spec.Regular (Bbob.Spec.seed function inst + 1000000) n) :
    ∃ P v, get qsort function inst n = .ok P ∧ Legacy.computeFopt function inst = .ok v ∧
      Bbob.Spec.KnownIn (if function = 5 then 5 else 4) P v := by
  have hs := fun k h0 hk => seed_small (function := function) hf hi k h0 hk
  have hs2 := seed_range (function := function) hf hi
  unfold Bbob.Spec.Rotated at hr
  interval_cases function
  · exact Bbob.wider (by simp [Bbob.Spec.reach]) (Bbob.sphereProblem_known .largescale 1 inst (by norm_num) hi _ hs hn)
  · exact Bbob.wider (by simp [Bbob.Spec.reach]) (Bbob.ellipsoidProblem_known .largescale 2 inst (by norm_num) hi _ hs hn)
  · exact Bbob.wider (by simp [Bbob.Spec.reach]) (Bbob.rastriginProblem_known .largescale 3 inst (by norm_num) hi _ hs hn)
  · exact Bbob.wider (by simp [Bbob.Spec.reach]) (Bbob.buecheProblem_known .largescale 4 inst (by norm_num) hi _ hs hn)
  · exact Bbob.linearSlopeProblem_known .largescale 5 inst (by norm_num) hi _ hs hn
  · exact attractiveSectorProblem_known qsort hq 6 inst hf hi _ hs2 hn hn' (hr (by omega))
  · exact stepEllipsoidProblem_known qsort hq 7 inst hf hi _ hs2 hn hn' (hr (by omega))
  · exact Bbob.wider (by simp [Bbob.Spec.reach]) (Bbob.rosenbrockProblem_known .largescale 8 inst (by norm_num) hi _ hs hn)
  · exact rosenbrockProblem_known qsort hq 9 inst hf hi _ hs2 hn hn' (hr (by omega))
  · exact ellipsoidProblem_known qsort hq 10 inst hf hi _ hs2 hn hn' (hr (by omega))
  · exact discusProblem_known qsort hq 11 inst hf hi _ hs2 hn hn' (hr (by omega))
  · have e : get qsort 12 inst n = bentCigarProblem qsort 12 inst (Bbob.Spec.seed 12 inst) n := by
      simp [get, Bbob.Spec.seed]
    rw [e]
    exact bentCigarProblem_known qsort hq 12 inst hf hi _ hs2 hn hn' (hr (by omega))
  · exact sharpRidgeProblem_known qsort hq 13 inst hf hi _ hs2 hn hn' (hr (by omega))
  · exact differentPowersProblem_known qsort hq 14 inst hf hi _ hs2 hn hn' (hr (by omega))
  · exact rastriginProblem_known qsort hq 15 inst hf hi _ hs2 hn hn' (hr (by omega))
  · exact weierstrassProblem_known qsort hq 16 inst hf hi _ hs2 hn hn' (hr (by omega))
  · exact schaffersProblem_known qsort hq 17 inst hf hi _ hs2 hn hn' (hr (by omega)) 10
  · exact schaffersProblem_known qsort hq 18 inst hf hi _ hs2 hn hn' (hr (by omega)) 1000
  · exact griewankRosenbrockProblem_known qsort hq 19 inst hf hi _ hs2 hn (hr (by omega)) hn'
  · exact absurd rfl h20
  · exact gallagherProblem_known qsort hq 21 inst hf hi _ hs2 hn hn' (hr (by omega)) 101 (Or.inl rfl)
  · exact gallagherProblem_known qsort hq 22 inst hf hi _ hs2 hn hn' (hr (by omega)) 21 (Or.inr rfl)
  · exact katsuuraProblem_known qsort hq 23 inst hf hi _ hs2 hn hn' (hr (by omega))
  · exact lunacekProblem_known qsort hq 24 inst hf hi _ hs2 hn hn' (hr (by omega)) (h24 rfl)

theorem optimum_known (qsort : Permutation.SortFn) (hq : Permutation.Spec.IsSort qsort) (function inst n : Nat)
    (h1 : 1 ≤ function) (hf : function ≤ 24) (h20 : function ≠ 20) (hi : inst ≤ 10 ^ 10) (hn : 2 ≤ n)
    (hn' : n ≤ 10 ^ 6) (h24 : function = 24 → n < 3000)
    (hr : Bbob.Spec.Rotated function → Spec.Regular (Bbob.Spec.seed function inst) n ∧
      Spec.Regular (Bbob.Spec.seed function inst + 1000000) n) :
    ∃ P v, get qsort function inst n = .ok P ∧ Legacy.computeFopt function inst = .ok v ∧ Bbob.Spec.Known P v := by
  refine Bbob.wider ?_ (C87_optimum qsort hq function inst n h1 hf h20 hi hn hn' h24 hr)
  split_ifs <;> norm_num

/-- C87, Schwefel's function: the same up to `1e-13`, in every dimension from 2 on. -/
theorem C87_schwefel (qsort : Permutation.SortFn) (inst n : Nat) (hi : inst ≤ 10 ^ 10) (hn : 2 ≤ n) :
    ∃ P v, get qsort 20 inst n = .ok P ∧ Legacy.computeFopt 20 inst = .ok v ∧ Bbob.Spec.NearlyKnown P v := by
  have e : get qsort 20 inst n = Bbob.get .largescale 20 inst n := by simp [get, Bbob.get]
  rw [e]
  exact Bbob.C86_schwefel .largescale inst n hi hn

/-- C87: any other function number is an error. -/
theorem C87_unknown (qsort : Permutation.SortFn) (function inst n : Nat) (h : function = 0 ∨ 24 < function) :
    get qsort function inst n = .error := by
  unfold get
  dsimp only
  iterate 24 rw [if_neg (by omega)]

/-! ### Cases that meet the hypotheses -/

theorem sizes_two : Rotation.blockSizes 2 = .ok [2] := by decide +kernel

theorem regular_of_two {seed : Int} (h : Bbob.Spec.Regular seed 2) : Spec.Regular seed 2 := by
  intro sizes hsizes
  have := Res.ok.inj (hsizes.symm.trans sizes_two)
  subst this
  intro k s g hk hg
  rcases k with _ | k
  · have hs : s = 2 := by simpa using hk.symm
    subst hs
    exact h g (by simpa using hg)
  · simp at hk

/-- The rotated Rastrigin function (number 15) of instance 1 in dimension 2. -/
example (qsort : Permutation.SortFn) (hq : Permutation.Spec.IsSort qsort) :
    ∃ P v, get qsort 15 1 2 = .ok P ∧ Legacy.computeFopt 15 1 = .ok v ∧ Bbob.Spec.Known P v :=
  optimum_known qsort hq 15 1 2 (by norm_num) (by norm_num) (by norm_num) (by norm_num) le_rfl (by norm_num)
    (by norm_num) fun _ => ⟨regular_of_two regular_example.2.1, regular_of_two regular_example.2.2⟩

/-- The separable ellipsoid (number 2) of instance 1 in dimension 640. -/
example (qsort : Permutation.SortFn) (hq : Permutation.Spec.IsSort qsort) :
    ∃ P v, get qsort 2 1 640 = .ok P ∧ Legacy.computeFopt 2 1 = .ok v ∧ Bbob.Spec.Known P v :=
  optimum_known qsort hq 2 1 640 (by norm_num) (by norm_num) (by norm_num) (by norm_num) (by norm_num) (by norm_num)
    (by norm_num) fun h => absurd h.1 (by norm_num)

end LargeScale
