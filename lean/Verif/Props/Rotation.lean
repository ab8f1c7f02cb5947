import Mathlib.LinearAlgebra.LinearIndependent.Defs
import Mathlib.LinearAlgebra.LinearIndependent.Basic
import Mathlib.LinearAlgebra.Matrix.NonsingularInverse
import Mathlib.LinearAlgebra.Matrix.DotProduct
import Mathlib.Data.Real.Sqrt
import Mathlib.Tactic.Linarith
import Verif.Model.Rotation
import Verif.Props.Noise

/-!
# Rotation matrices: C83
-/

namespace Rotation
open Legacy Matrix

variable {n : Nat}

theorem subtract_eq (c e : Fin n → ℝ) : subtract c e = c - (c ⬝ᵥ e) • e := by
  funext k
  simp [subtract, dotProduct]

/-- An orthonormal list of vectors. -/
def ON (l : List (Fin n → ℝ)) : Prop := (∀ a ∈ l, a ⬝ᵥ a = 1) ∧ l.Pairwise fun a b => a ⬝ᵥ b = 0

/-- The space spanned by a list. -/
def spanOf (l : List (Fin n → ℝ)) : Submodule ℝ (Fin n → ℝ) := Submodule.span ℝ {x | x ∈ l}

theorem spanOf_mono {l l' : List (Fin n → ℝ)} (h : ∀ x ∈ l, x ∈ l') : spanOf l ≤ spanOf l' :=
  Submodule.span_mono h

theorem mem_spanOf {l : List (Fin n → ℝ)} {x} (h : x ∈ l) : x ∈ spanOf l := Submodule.subset_span h

theorem fold_subtract (done : List (Fin n → ℝ)) (c : Fin n → ℝ) (h : ON done) :
    (∃ w ∈ spanOf done, done.foldl subtract c = c - w) ∧ ∀ b ∈ done, done.foldl subtract c ⬝ᵥ b = 0 := by
  induction done using List.reverseRecOn with
  | nil => exact ⟨⟨0, Submodule.zero_mem _, by simp⟩, by simp⟩
  | append_singleton done e ih =>
    have hon : ON done := ⟨fun a ha => h.1 a (by simp [ha]), (List.pairwise_append.mp h.2).1⟩
    have he : e ⬝ᵥ e = 1 := h.1 e (by simp)
    have hde : ∀ b ∈ done, b ⬝ᵥ e = 0 := fun b hb => (List.pairwise_append.mp h.2).2.2 b hb e (by simp)
    obtain ⟨⟨w, hw, hv⟩, ho⟩ := ih hon
    rw [List.foldl_append, List.foldl_cons, List.foldl_nil]
    generalize done.foldl subtract c = v at *
    rw [subtract_eq]
    refine ⟨⟨w + (v ⬝ᵥ e) • e, ?_, ?_⟩, ?_⟩
    · refine Submodule.add_mem _ (spanOf_mono (by intro x hx; simp [hx]) hw) ?_
      exact Submodule.smul_mem _ _ (mem_spanOf (by simp))
    · rw [hv]; abel
    · intro b hb
      rw [sub_dotProduct, smul_dotProduct, smul_eq_mul]
      rcases List.mem_append.mp hb with hb | hb
      · rw [ho b hb, dotProduct_comm e b, hde b hb]; ring
      · rw [List.mem_singleton] at hb
        subst hb
        rw [he]; ring

theorem span_dot (l : List (Fin n → ℝ)) (q w : Fin n → ℝ) (h : ∀ b ∈ l, q ⬝ᵥ b = 0) (hw : w ∈ spanOf l) :
    q ⬝ᵥ w = 0 := by
  unfold spanOf at hw
  induction hw using Submodule.span_induction with
  | mem x hx => exact h x hx
  | zero => simp
  | add x y _ _ hx hy => rw [dotProduct_add, hx, hy, add_zero]
  | smul a x _ hx => rw [dotProduct_smul, hx, smul_zero]

theorem finish_spec (done : List (Fin n → ℝ)) (c : Fin n → ℝ) (h : ON done) (hc : c ∉ spanOf done) :
    finish done c ⬝ᵥ finish done c = 1 ∧ (∀ b ∈ done, b ⬝ᵥ finish done c = 0) ∧
      0 < c ⬝ᵥ finish done c ∧ c ∈ spanOf (done ++ [finish done c]) ∧
      finish done c ∈ spanOf (done ++ [c]) := by
  obtain ⟨⟨w, hw, hv⟩, ho⟩ := fold_subtract done c h
  have hfin : finish done c = (Real.sqrt (done.foldl subtract c ⬝ᵥ done.foldl subtract c))⁻¹ •
      done.foldl subtract c := by
    funext k
    simp [finish, dotProduct, div_eq_inv_mul]
  generalize done.foldl subtract c = v at *
  have hne : v ≠ 0 := by
    intro h0
    rw [h0] at hv
    exact hc (by rw [eq_of_sub_eq_zero hv.symm]; exact hw)
  have hpos : 0 < v ⬝ᵥ v := by
    have h0 : 0 ≤ v ⬝ᵥ v := by
      unfold dotProduct
      exact Finset.sum_nonneg fun i _ => mul_self_nonneg _
    rcases h0.lt_or_eq with h1 | h1
    · exact h1
    · exact absurd (dotProduct_self_eq_zero.mp h1.symm) hne
  have hs : 0 < Real.sqrt (v ⬝ᵥ v) := Real.sqrt_pos.mpr hpos
  have hss : Real.sqrt (v ⬝ᵥ v) * Real.sqrt (v ⬝ᵥ v) = v ⬝ᵥ v := Real.mul_self_sqrt hpos.le
  rw [hfin]
  have hvw : v ⬝ᵥ w = 0 := span_dot done v w ho hw
  have hcv : c = v + w := by rw [hv]; abel
  generalize Real.sqrt (v ⬝ᵥ v) = s at *
  refine ⟨?_, ?_, ?_, ?_, ?_⟩
  · rw [smul_dotProduct, dotProduct_smul, smul_eq_mul, smul_eq_mul, ← hss]
    field_simp
  · intro b hb
    rw [dotProduct_smul, dotProduct_comm, ho b hb, smul_zero]
  · rw [dotProduct_smul, smul_eq_mul]
    have : c ⬝ᵥ v = v ⬝ᵥ v := by rw [hcv, add_dotProduct, dotProduct_comm w v, hvw, add_zero]
    rw [this]
    positivity
  · have : c = s • (s⁻¹ • v) + w := by
      rw [smul_smul, mul_inv_cancel₀ hs.ne', one_smul]; exact hcv
    rw [this]
    refine Submodule.add_mem _ (Submodule.smul_mem _ _ (mem_spanOf (by simp))) ?_
    exact spanOf_mono (by intro x hx; simp [hx]) hw
  · refine Submodule.smul_mem _ _ ?_
    rw [hv]
    exact Submodule.sub_mem _ (mem_spanOf (by simp)) (spanOf_mono (by intro x hx; simp [hx]) hw)

theorem spanOf_snoc (l l' : List (Fin n → ℝ)) (a b : Fin n → ℝ) (h : spanOf l = spanOf l')
    (ha : a ∈ spanOf (l ++ [b])) (hb : b ∈ spanOf (l ++ [a])) : spanOf (l ++ [a]) = spanOf (l' ++ [b]) := by
  have key : ∀ (m m' : List (Fin n → ℝ)) (x y : Fin n → ℝ), spanOf m = spanOf m' → x ∈ spanOf (m' ++ [y]) →
      spanOf (m ++ [x]) ≤ spanOf (m' ++ [y]) := by
    intro m m' x y hm hx
    refine Submodule.span_le.mpr ?_
    intro z hz
    rcases List.mem_append.mp hz with hz | hz
    · have : z ∈ spanOf m' := hm ▸ mem_spanOf hz
      exact spanOf_mono (by intro x hx; simp [hx]) this
    · rw [List.mem_singleton] at hz
      subst hz
      exact hx
  have hab : spanOf (l ++ [b]) = spanOf (l' ++ [b]) :=
    le_antisymm (key _ _ _ _ h (mem_spanOf (by simp))) (key _ _ _ _ h.symm (mem_spanOf (by simp)))
  refine le_antisymm (key _ _ _ _ h (hab ▸ ha)) ?_
  exact key _ _ _ _ h.symm hb

/-- No vector of the list is spanned by those before it. -/
def Indep (past l : List (Fin n → ℝ)) : Prop := ∀ l1 c l2, l = l1 ++ c :: l2 → c ∉ spanOf (past ++ l1)

theorem orthonormalize_spec (cs : List (Fin n → ℝ)) : ∀ (done past : List (Fin n → ℝ)), ON done →
    done.length = past.length → spanOf done = spanOf past → Indep past cs →
    ON (orthonormalize done cs) ∧ (orthonormalize done cs).length = (past ++ cs).length ∧
    (∃ rest, orthonormalize done cs = done ++ rest) ∧
    (∀ i, past.length ≤ i → spanOf ((orthonormalize done cs).take i) = spanOf ((past ++ cs).take i)) ∧
    ∀ i c q, past.length ≤ i → (past ++ cs)[i]? = some c → (orthonormalize done cs)[i]? = some q → 0 < c ⬝ᵥ q := by
  induction cs with
  | nil =>
    intro done past hon hlen hsp _
    unfold orthonormalize
    refine ⟨hon, by simpa using hlen, ⟨[], by simp⟩, ?_, ?_⟩
    · intro i hi
      rw [List.append_nil, List.take_of_length_le (by omega), List.take_of_length_le hi, hsp]
    · intro i c q hi hc
      rw [List.append_nil, List.getElem?_eq_none hi] at hc
      cases hc
  | cons c cs ih =>
    intro done past hon hlen hsp hind
    have hc : c ∉ spanOf done := by
      have := hind [] c cs rfl
      rw [List.append_nil] at this
      rwa [hsp]
    obtain ⟨h1, h2, h3, h4, h5⟩ := finish_spec done c hon hc
    unfold orthonormalize
    have hon' : ON (done ++ [finish done c]) := by
      refine ⟨?_, ?_⟩
      · intro a ha
        rcases List.mem_append.mp ha with ha | ha
        · exact hon.1 a ha
        · rw [List.mem_singleton] at ha; rw [ha]; exact h1
      · refine List.pairwise_append.mpr ⟨hon.2, List.pairwise_singleton _ _, ?_⟩
        intro a ha b hb
        rw [List.mem_singleton] at hb; rw [hb]
        exact h2 a ha
    obtain ⟨r1, r2, ⟨rest, r3⟩, r4, r5⟩ := ih (done ++ [finish done c]) (past ++ [c]) hon'
      (by simp [hlen]) (spanOf_snoc _ _ _ _ hsp h5 h4) (by
        intro l1 d l2 hl
        have := hind (c :: l1) d l2 (by rw [hl]; simp)
        simpa using this)
    have happ : past ++ [c] ++ cs = past ++ c :: cs := by simp
    rw [happ] at r2 r4 r5
    refine ⟨r1, r2, ⟨finish done c :: rest, by rw [r3]; simp⟩, ?_, ?_⟩
    · intro i hi
      rcases Nat.eq_or_lt_of_le hi with rfl | hi
      · rw [r3, List.append_assoc, ← hlen, List.take_left' rfl]
        conv_rhs => rw [hlen, List.take_left' rfl]
        exact hsp
      · exact r4 i (by simpa using hi)
    · intro i d q hi hd hq
      rcases Nat.eq_or_lt_of_le hi with rfl | hi
      · rw [List.getElem?_append_right (le_refl _)] at hd
        simp at hd
        subst hd
        rw [r3, List.append_assoc, ← hlen, List.getElem?_append_right (le_refl _)] at hq
        simp at hq
        subst hq
        exact h3
      · exact r5 i d q (by simpa using hi) hd hq

theorem indep_of_linearIndependent (v : Fin n → (Fin n → ℝ)) (h : LinearIndependent ℝ v) :
    Indep [] (List.ofFn v) := by
  intro l1 c l2 hl
  rw [List.nil_append]
  have hlen : l1.length < n := by
    have := congrArg List.length hl
    simp at this
    omega
  have hget : ∀ k (hk : k < n), (List.ofFn v)[k]? = some (v ⟨k, hk⟩) := by
    intro k hk
    simp [hk]
  have hc : c = v ⟨l1.length, hlen⟩ := by
    have := hget _ hlen
    rw [hl, List.getElem?_append_right (le_refl _)] at this
    simpa using this
  rw [hc]
  have hsub : {x | x ∈ l1} ⊆ v '' {j | j.1 < l1.length} := by
    intro x hx
    obtain ⟨k, hk, hxk⟩ := List.getElem_of_mem (show x ∈ l1 from hx)
    refine ⟨⟨k, by omega⟩, hk, ?_⟩
    have := hget k (by omega)
    rw [hl, List.getElem?_append_left hk, List.getElem?_eq_getElem hk, hxk] at this
    exact (Option.some.inj this).symm
  intro hmem
  have := LinearIndependent.notMem_span_image h (s := {j | j.1 < l1.length}) (x := ⟨l1.length, hlen⟩) (by simp)
  exact this (Submodule.span_mono hsub hmem)

/-- `q` is an orthonormal basis whose first `i` vectors span the same space as the first `i` of `v`, and each vector of
`q` has a positive product with the one of `v`. (For independent `v` there is exactly one such `q`.) -/
structure Spec.Orthonormalized (v q : Fin n → (Fin n → ℝ)) : Prop where
  columns : ∀ i j, ∑ k, q i k * q j k = if i = j then 1 else 0
  rows : ∀ k l, ∑ i, q i k * q i l = if k = l then 1 else 0
  spans : ∀ m : Nat, Submodule.span ℝ (q '' {j | j.1 < m}) = Submodule.span ℝ (v '' {j | j.1 < m})
  positive : ∀ i, 0 < ∑ k, v i k * q i k

theorem spanOf_take (q : Fin n → (Fin n → ℝ)) (m : Nat) :
    spanOf ((List.ofFn q).take m) = Submodule.span ℝ (q '' {j | j.1 < m}) := by
  unfold spanOf
  congr 1
  ext x
  simp only [Set.mem_setOf_eq, Set.mem_image]
  rw [List.mem_take_iff_getElem]
  constructor
  · rintro ⟨k, hk, rfl⟩
    simp at hk
    exact ⟨⟨k, hk.2⟩, hk.1, by simp⟩
  · rintro ⟨j, hj, rfl⟩
    exact ⟨j.1, by simpa using hj, by simp⟩

theorem list_eq_ofFn (l : List (Fin n → ℝ)) (h : l.length = n) : ∃ q : Fin n → (Fin n → ℝ), l = List.ofFn q := by
  refine ⟨fun i => l[i.1]'(by omega), List.ext_getElem (by simp [h]) ?_⟩
  intro i h1 h2
  simp

theorem orthonormalized (v : Fin n → (Fin n → ℝ)) (h : LinearIndependent ℝ v) :
    ∃ q, orthonormalize [] (List.ofFn v) = List.ofFn q ∧ Spec.Orthonormalized v q := by
  obtain ⟨h1, h2, -, h4, h5⟩ := orthonormalize_spec (List.ofFn v) [] [] ⟨by simp, List.Pairwise.nil⟩ rfl rfl
    (indep_of_linearIndependent v h)
  simp only [List.nil_append, List.length_nil, Nat.zero_le, true_implies] at h2 h4 h5
  obtain ⟨q, hq⟩ := list_eq_ofFn _ (h2.trans (by simp))
  rw [hq] at h1 h4 h5
  have hcols : ∀ i j, ∑ k, q i k * q j k = if i = j then 1 else 0 := by
    intro i j
    by_cases hij : i = j
    · subst hij
      rw [if_pos rfl]
      exact h1.1 (q i) (by simp)
    · rw [if_neg hij]
      have hp := List.pairwise_iff_getElem.mp h1.2
      rcases Nat.lt_or_gt_of_ne (fun h => hij (Fin.ext h)) with hlt | hlt
      · have := hp i j (by simp) (by simp) hlt
        simpa [dotProduct] using this
      · have := hp j i (by simp) (by simp) hlt
        rw [dotProduct_comm] at this
        simpa [dotProduct] using this
  refine ⟨q, hq, hcols, ?_, ?_, ?_⟩
  · intro k l
    have hmul : (Matrix.of q) * (Matrix.of q)ᵀ = 1 := by
      ext i j
      rw [Matrix.mul_apply, Matrix.one_apply]
      simpa using hcols i j
    have hmul' := mul_eq_one_comm.mp hmul
    have := congrFun (congrFun hmul' k) l
    rw [Matrix.mul_apply, Matrix.one_apply] at this
    simpa using this
  · intro m
    rw [← spanOf_take, ← spanOf_take]
    exact h4 m
  · intro i
    have := h5 i (v i) (q i) (by simp) (by simp)
    simpa [dotProduct] using this

/-- C83: for every size up to 44 and every seed in range, if the random matrix is regular, the matrix computed is the
orthonormalization of its columns; in particular it is orthogonal: its columns and its rows are orthonormal. -/
theorem C83_rotation (seed : Int) (hs : seed.natAbs < 2 ^ 31 * 127773) (n : Nat) (hn : n ≤ 44) :
    ∃ g : List ℝ, gauss (n * n) seed = .ok g ∧ g.length = n * n ∧
      (LinearIndependent ℝ (fun j : Fin n => reshape g j) →
        ∃ q : Fin n → (Fin n → ℝ), columns seed n = .ok (List.ofFn q) ∧
          Spec.Orthonormalized (fun j => reshape g j) q) := by
  have hnn : n * n < 2000 := by nlinarith
  obtain ⟨us, -, -, -, hg⟩ := gauss_ok (n * n) (by omega) seed hs
  refine ⟨_, hg, by simp, ?_⟩
  intro hli
  obtain ⟨q, h1, h2⟩ := orthonormalized _ hli
  refine ⟨q, ?_, h2⟩
  unfold columns
  rw [hg]
  simp only [Res.assert, hnn, decide_true, if_true, Res.ok_bind]
  rw [h1]

/-- C83: beyond size 44 the process stops. -/
theorem C83_too_large (seed : Int) (n : Nat) (hn : 44 < n) : columns seed n = .assertFail := by
  have hnn : ¬ n * n < 2000 := by nlinarith
  unfold columns
  simp [Res.assert, hnn]

/-! ### The hypothesis of regularity holds for size 2 and seed 5 -/

theorem gaussNumber_pos {u v : ℝ} (hu : 0 < u) (hu1 : u < 1) (h : 0 < Real.cos (2 * Real.pi * v)) :
    0 < gaussNumber u v := by
  have hs : 0 < Real.sqrt (-2 * Real.log u) := Real.sqrt_pos.mpr (by have := Real.log_neg hu hu1; linarith)
  unfold gaussNumber
  dsimp only
  split_ifs
  · positivity
  · positivity

theorem gaussNumber_neg {u v : ℝ} (hu : 0 < u) (hu1 : u < 1) (h : Real.cos (2 * Real.pi * v) < 0) :
    gaussNumber u v < 0 := by
  have hs : 0 < Real.sqrt (-2 * Real.log u) := Real.sqrt_pos.mpr (by have := Real.log_neg hu hu1; linarith)
  have := mul_neg_of_pos_of_neg hs h
  unfold gaussNumber
  dsimp only
  rw [if_neg this.ne]
  exact this

theorem cos_neg_of {v : ℝ} (h1 : 1 / 4 < v) (h2 : v < 3 / 4) : Real.cos (2 * Real.pi * v) < 0 :=
  Real.cos_neg_of_pi_div_two_lt_of_lt (by nlinarith [Real.pi_pos]) (by nlinarith [Real.pi_pos])

theorem cos_pos_of {v : ℝ} (h1 : 3 / 4 < v) (h2 : v < 1) : 0 < Real.cos (2 * Real.pi * v) := by
  rw [← Real.cos_sub_two_pi]
  exact Real.cos_pos_of_mem_Ioo ⟨by nlinarith [Real.pi_pos], by nlinarith [Real.pi_pos]⟩

example : ∃ g : List ℝ, gauss (2 * 2) 5 = .ok g ∧ LinearIndependent ℝ (fun j : Fin 2 => reshape g j) := by
  have hu : unif 8 5 = .ok ([371215210, 1461168109, 1969410553, 1970338553, 1646645739, 1392645221, 717713060,
      1086525734].map fun z : ℚ => z / 2147483647) := by decide +kernel
  obtain ⟨us, h1, -, -, hg⟩ := gauss_ok 4 (by omega) 5 (by decide)
  have hus := Res.ok.inj (h1.symm.trans hu)
  subst hus
  refine ⟨_, hg, ?_⟩
  simp only [List.range, List.range.loop, List.map_cons, List.map_nil]
  have g0 : 0 < gaussNumber ((371215210 / 2147483647 : ℚ) : ℝ) ((1646645739 / 2147483647 : ℚ) : ℝ) :=
    gaussNumber_pos (by norm_num) (by norm_num) (cos_pos_of (by norm_num) (by norm_num))
  have g1 : gaussNumber ((1461168109 / 2147483647 : ℚ) : ℝ) ((1392645221 / 2147483647 : ℚ) : ℝ) < 0 :=
    gaussNumber_neg (by norm_num) (by norm_num) (cos_neg_of (by norm_num) (by norm_num))
  have g2 : gaussNumber ((1969410553 / 2147483647 : ℚ) : ℝ) ((717713060 / 2147483647 : ℚ) : ℝ) < 0 :=
    gaussNumber_neg (by norm_num) (by norm_num) (cos_neg_of (by norm_num) (by norm_num))
  have g3 : gaussNumber ((1970338553 / 2147483647 : ℚ) : ℝ) ((1086525734 / 2147483647 : ℚ) : ℝ) < 0 :=
    gaussNumber_neg (by norm_num) (by norm_num) (cos_neg_of (by norm_num) (by norm_num))
  simp only [List.getD_cons_zero, List.getD_cons_succ, Nat.add_zero, Nat.reduceAdd]
  generalize gaussNumber ((371215210 / 2147483647 : ℚ) : ℝ) ((1646645739 / 2147483647 : ℚ) : ℝ) = a at *
  generalize gaussNumber ((1461168109 / 2147483647 : ℚ) : ℝ) ((1392645221 / 2147483647 : ℚ) : ℝ) = b at *
  generalize gaussNumber ((1969410553 / 2147483647 : ℚ) : ℝ) ((717713060 / 2147483647 : ℚ) : ℝ) = c at *
  generalize gaussNumber ((1970338553 / 2147483647 : ℚ) : ℝ) ((1086525734 / 2147483647 : ℚ) : ℝ) = d at *
  have hdet : a * d - b * c < 0 := by nlinarith [mul_pos g0 (neg_pos.mpr g3), mul_pos (neg_pos.mpr g1) (neg_pos.mpr g2)]
  rw [Fintype.linearIndependent_iff]
  intro s hs
  have e0 := congrFun hs 0
  have e1 := congrFun hs 1
  simp [Fin.sum_univ_two, reshape] at e0 e1
  have k0 : s 0 * (a * d - b * c) = 0 := by linear_combination d * e0 - c * e1
  have k1 : s 1 * (a * d - b * c) = 0 := by linear_combination a * e1 - b * e0
  have z0 := (mul_eq_zero.mp k0).resolve_right hdet.ne
  have z1 := (mul_eq_zero.mp k1).resolve_right hdet.ne
  intro i
  fin_cases i
  · exact z0
  · exact z1

end Rotation
