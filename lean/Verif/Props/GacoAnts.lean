import Verif.Props.Gaco

/-!
# C115: how `gaco` makes new points
-/

set_option autoImplicit false

namespace Verif.Props

open Verif Run Prob Pop Alg

variable {K σ : Type} [Field K] [LinearOrder K] [IsStrictOrderedRing K]

/-- The weight of row `i` of the archive, up to a factor: a Gaussian of mean 0 and standard deviation `q * ker`. -/
def gaWeight (X : K → K) (q : K) (ker i : Nat) : K := X (-((i : K) * i) / (2 * (q * q) * ((ker : K) * ker)))

/-- The share of the first `k` rows in the weights of all. -/
def gaShare (X : K → K) (q : K) (ker k : Nat) : K := ((List.range k).map (gaWeight X q ker)).sum / ((List.range ker).map (gaWeight X q ker)).sum

theorem gaSum_pos {X : K → K} (hX : ∀ a, 0 < X a) (q : K) (ker : Nat) : ∀ k, 0 < k → 0 < ((List.range k).map (gaWeight X q ker)).sum := by
  intro k
  induction k with
  | zero => intro h; omega
  | succ k ih =>
    intro _
    rw [List.range_succ, List.map_append, List.sum_append]
    have : 0 < gaWeight X q ker k := hX _
    rcases Nat.eq_zero_or_pos k with rfl | h
    · simpa using this
    · have := ih h
      simp
      linarith

/-- C115. The first row is preferred to the second, this one to the third, and so on: the weights are positive and decrease, the shares increase up to 1. -/
theorem C115_weights {v : GaEnv K σ} {R X : K → K} (hF : GaFns v R X) {q : K} (hq : 0 < q) {ker : Nat} (hk : 0 < ker) :
    (∀ i, 0 < gaWeight X q ker i) ∧ (∀ i j, i < j → gaWeight X q ker j < gaWeight X q ker i) ∧ gaShare X q ker 0 = 0 ∧ gaShare X q ker ker = 1 ∧
    ∀ i, gaShare X q ker i < gaShare X q ker (i + 1) := by
  have hs := gaSum_pos hF.expPos q ker ker hk
  have hker : (0 : K) < ker := by exact_mod_cast hk
  refine ⟨fun i => hF.expPos _, fun i j h => ?_, by simp [gaShare], div_self hs.ne', fun i => ?_⟩
  · apply hF.expMono
    have hd : 0 < 2 * (q * q) * ((ker : K) * ker) := by positivity
    have h' : (i : K) < j := by exact_mod_cast h
    have h0 : (0 : K) ≤ i := Nat.cast_nonneg i
    rw [div_lt_div_iff_of_pos_right hd]
    nlinarith
  · unfold gaShare
    rw [div_lt_div_iff_of_pos_right hs, List.range_succ, List.map_append, List.sum_append]
    have : 0 < gaWeight X q ker i := hF.expPos _
    simp
    exact this

theorem gaCum_exact {v : GaEnv K σ} {R X : K → K} (hF : GaFns v R X) {q : K} (hq : 0 < q) {ker : Nat} (hk : 0 < ker) :
    gaCum v (.fin q) ker = ((List.range ker).map (fun k => gaShare X q ker (k + 1))).map Fl.fin := by
  have hker : (0 : K) < ker := by exact_mod_cast hk
  have h2p : 0 < R (2 * v.pi) := hF.sqrtPos _ (by have := hF.pi; positivity)
  generalize hc : 1 / (q * ker * R (2 * v.pi)) = c
  have hc0 : 0 < c := by rw [← hc]; positivity
  have om : ∀ i, gaOmega v (.fin q) ker i = .fin (c * gaWeight X q ker i) := by
    intro i
    unfold gaOmega
    simp only [hF.op, hF.int, ex_mul, ex_sub]
    rw [hF.sqrt _ (by have := hF.pi; positivity)]
    simp only [ex_mul]
    rw [show ((((ker : ℕ) : ℤ)) : K) = (ker : K) from Int.cast_natCast ker, ex_div _ (by positivity)]
    have e1 : ((((i + 1 : ℕ) : ℤ) : K) - 1) = i := by push_cast; ring
    rw [e1, show Fl.neg (Fl.fin ((i : K) * i)) = .fin (-((i : K) * i)) from rfl, ex_div _ (by positivity), hF.exp, ex_mul, hc]
    rfl
  have hom : (List.range ker).map (gaOmega v (.fin q) ker) = ((List.range ker).map (fun i => c * gaWeight X q ker i)).map Fl.fin := by
    rw [List.map_map]
    exact List.map_congr_left fun i _ => om i
  have hsum : ∀ k, ((List.range k).map (fun i => c * gaWeight X q ker i)).sum = c * ((List.range k).map (gaWeight X q ker)).sum := by
    intro k
    induction k with
    | zero => simp
    | succ k ih => rw [List.range_succ, List.map_append, List.map_append, List.sum_append, List.sum_append, ih]; simp; ring
  have hs := gaSum_pos hF.expPos q ker ker hk
  unfold gaCum
  dsimp only
  rw [hom, hF.op, show (Fl.exact K).zero = Fl.fin 0 from rfl, fold_exact, zero_add, hsum,
    show ((List.range ker).map (fun k => gaShare X q ker (k + 1))).map Fl.fin = (List.range ker).map (fun k => Fl.fin (gaShare X q ker (k + 1))) by rw [List.map_map]; rfl]
  refine List.map_congr_left ?_
  intro k hkk
  have hk' := List.mem_range.mp hkk
  show _ = Fl.fin (gaShare X q ker (k + 1))
  rw [← List.map_take, ← List.map_take, List.take_range, Nat.min_eq_left (by omega)]
  generalize hS : c * ((List.range ker).map (gaWeight X q ker)).sum = S
  have hS0 : S ≠ 0 := by rw [← hS]; positivity
  have fold : ∀ (l : List K) (a : K), (l.map Fl.fin).foldl (fun c o => (Fl.exact K).add c ((Fl.exact K).div o (.fin S))) (.fin a) = .fin (a + l.sum / S) := by
    intro l
    induction l with
    | nil => intro a; simp
    | cons b l ih =>
      intro a
      rw [List.map_cons, List.foldl_cons, ex_div _ hS0, ex_add, ih, List.sum_cons]
      congr 1
      ring
  rw [fold, hsum, zero_add, ← hS]
  unfold gaShare
  congr 1
  field_simp

/-- The kernel that is chosen: the one whose interval has the number drawn. -/
theorem gaPick_exact {ker : Nat} (hk : 2 ≤ ker) {cs : List K} (hc : cs.length = ker) (u : K) :
    ∃ k, gaPick ker (cs.map .fin) (.fin u) = .ok k ∧ k < ker ∧ (k = 0 ∨ cs.getD (k - 1) 0 < u) ∧ (k + 1 = ker ∨ u ≤ cs.getD k 0) := by
  have get : ∀ i (h : i < cs.length), Outcome.get (cs.map Fl.fin) i = .ok (Fl.fin (cs.getD i 0)) := by
    intro i h
    rw [Outcome.get_of_lt (by simpa using h), List.getElem_map, List.getD_eq_getElem _ _ h]
  have le : ∀ a b : K, Fl.le (Fl.fin a) (.fin b) = true ↔ a ≤ b := by
    intro a b
    rw [Fl.le_iff (by simp) (by simp), Fl.fin_le_fin]
  have gt : ∀ a b : K, Fl.gt (Fl.fin a) (.fin b) = true ↔ b < a := by
    intro a b
    simp [Fl.gt, Fl.lt]
  unfold gaPick
  rw [get 0 (by omega), Outcome.bind_ok]
  by_cases h1 : u ≤ cs.getD 0 0
  · rw [if_pos ((le _ _).mpr h1)]
    exact ⟨0, rfl, by omega, Or.inl rfl, Or.inr h1⟩
  rw [if_neg (by rw [le]; exact h1), get (ker - 2) (by omega), Outcome.bind_ok]
  by_cases h2 : cs.getD (ker - 2) 0 < u
  · rw [if_pos ((gt _ _).mpr h2)]
    exact ⟨ker - 1, rfl, by omega, Or.inr h2, Or.inl (by omega)⟩
  rw [if_neg (by rw [gt]; exact h2)]
  obtain ⟨k, hk1, hk2⟩ := Outcome.foldlM_sat (f := gaPickStep (cs.map Fl.fin) (.fin u))
    (fun p k => k < ker ∧ (cs.getD (p.length) 0 < u ∨ (k = 0 ∨ cs.getD (k - 1) 0 < u) ∧ u ≤ cs.getD k 0))
    (List.range' 1 (ker - 2)) [] 0 ⟨by omega, Or.inl (not_le.mp h1)⟩ (by
      intro p a q s hl ⟨hs1, hs2⟩
      have ha : a = p.length + 1 ∧ a < ker - 1 := by
        have e : (List.range' 1 (ker - 2))[p.length]? = some a := by rw [hl]; simp
        have hlt := (List.getElem?_eq_some_iff.mp e).1
        rw [List.length_range'] at hlt
        rw [List.getElem?_range' hlt] at e
        simp at e
        omega
      obtain ⟨rfl, ha2⟩ := ha
      unfold gaPickStep
      rw [get _ (by omega), Outcome.bind_ok, get _ (by omega), Outcome.bind_ok]
      refine ⟨_, rfl, ?_⟩
      simp only [Nat.add_sub_cancel, Bool.and_eq_true, gt, le, List.length_append, List.length_singleton]
      split
      · rename_i h
        exact ⟨by omega, Or.inr ⟨Or.inr (by simpa using h.1), h.2⟩⟩
      · rename_i h
        refine ⟨hs1, ?_⟩
        rcases hs2 with hs2 | hs2
        · left
          by_contra hn
          exact h ⟨hs2, by simpa using hn⟩
        · exact Or.inr hs2)
  refine ⟨k, hk1, hk2.1, ?_⟩
  simp only [List.nil_append, List.length_range'] at hk2
  rcases hk2.2 with h | h
  · exact absurd h h2
  · exact ⟨h.1, Or.inr h.2⟩

/-- The standard deviation for variable `h`. `t` counts the generations, or the calls if there is memory; `dmin` and `dmax` are the smallest and the largest
distance between the values in two rows. -/
def gaSd (R : K → K) (P : AProb K) (foc : K) (t mark h : Nat) (lo hi dmin dmax : K) : K :=
  if foc ≠ 0 ∧ (hi - lo) / foc < (dmax - dmin) / t then (hi - lo) / foc
  else if h < P.info.nx - P.nix then (dmax - dmin) / mark
  else max (max ((dmax - dmin) / mark) (1 / mark)) (1 - 1 / R P.nix)

/-- A point `x` made from the chromosomes `rows`: the number `u` chooses the row `k`, each component is a normal number around the one of
this row, moved to the bounds and rounded for an integer. -/
def GaBred (v : GaEnv K σ) (R X : K → K) (P : AProb K) (foc q : K) (ker t mark : Nat) (rows : List (List (Fl K))) (x : List (Fl K)) : Prop :=
  x.length = P.info.nx ∧ ∃ (k : Nat) (u : K) (row : List (Fl K)), k < ker ∧ 0 ≤ u ∧ u ≤ 1 ∧ (k = 0 ∨ gaShare X q ker k < u) ∧ (k + 1 = ker ∨ u ≤ gaShare X q ker (k + 1)) ∧
    rows[k]? = some row ∧ ∀ h, h < P.info.nx → ∃ (col : List K) (c lo hi dmin dmax z : K),
      rows.map (fun r => r.getD h .nan) = col.map .fin ∧ GaSpreadIs col dmin dmax ∧ row[h]? = some (.fin c) ∧ P.lb[h]? = some (.fin lo) ∧ P.ub[h]? = some (.fin hi) ∧
      x[h]? = some (if h < P.info.nx - P.nix then .fin (min hi (max lo (c + gaSd R P foc t mark h lo hi dmin dmax * z)))
        else v.rd (.fin (min hi (max lo (c + gaSd R P foc t mark h lo hi dmin dmax * z)))))

/-- `q` in a generation: 0.01 from the generation number `threshold` on; with memory in the call number `threshold`. -/
def gaQ (A : Gaco K) (q0 : K) (counter g : Nat) : K :=
  if A.memory then (if counter = A.threshold then 1 / 100 else q0) else if A.threshold ≤ g then 1 / 100 else q0

omit [IsStrictOrderedRing K] in
theorem gaFull_q {v : GaEnv K σ} {P : AProb K} {A : Gaco K} {tol : List (Fl K)} {n : Nat} (ht : 1 ≤ A.threshold) {a : GaState K} (ha : a.g = 0) {q0 : K} (hq : a.m.q = .fin q0) :
    ∀ (k : Nat) (b : GaState K), A.ker ≤ n → Steps (GaFull v P A tol n) k a b →
      b.m.q = .fin (if k = 0 then q0 else gaQ A q0 a.m.counter k) ∧ (0 < k → b.cum = gaCum v (.fin (gaQ A q0 a.m.counter k)) A.ker) := by
  intro k
  induction k with
  | zero => intro b _ h; cases h; exact ⟨hq, fun h => by omega⟩
  | succ k ih =>
    intro c hk h
    cases h with
    | snoc h hS =>
      rename_i b
      obtain ⟨hb1, hb2⟩ := ih b hk h
      obtain ⟨hg, hcnt, -, -⟩ := gaSteps_gens hk ha _ _ h
      obtain ⟨-, -, -, -, ps, sl, m1, arch1, sig, check, hw⟩ := hS
      have em : (gaStored A m1 arch1).q = b.m.q ∧ (gaStored A m1 arch1).counter = b.m.counter := by
        have : m1.q = b.m.q ∧ m1.counter = b.m.counter := by cases hw.archived <;> exact ⟨rfl, rfl⟩
        unfold gaStored
        split <;> exact this
      have key : (gaPhero v A (b.g + 1) (gaStored A m1 arch1) b.cum).1.q = .fin (gaQ A q0 a.m.counter (k + 1)) ∧
          (gaPhero v A (b.g + 1) (gaStored A m1 arch1) b.cum).2 = gaCum v (.fin (gaQ A q0 a.m.counter (k + 1))) A.ker := by
        unfold gaPhero gaQ
        rw [hg, em.1, em.2, hcnt, hb1]
        by_cases hm : A.memory = true
        · rw [if_neg (by simp [hm])]
          simp only [hm, if_true]
          unfold gaQ
          simp only [hm, if_true]
          by_cases hc : a.m.counter = A.threshold
          · simp [hc]
          · simp [hc]
        · have hm' : A.memory = false := by simpa using hm
          rw [if_pos hm']
          simp only [hm', Bool.false_eq_true, if_false]
          by_cases hc : k + 1 = A.threshold
          · rw [if_pos (Or.inr hc)]
            simp [hc]
          · by_cases hk0 : k = 0
            · subst hk0
              rw [if_pos (Or.inl rfl)]
              simp [hc, show ¬ A.threshold ≤ 1 by omega]
            · rw [if_neg (by omega)]
              dsimp only
              have e : (A.threshold ≤ k + 1) ↔ A.threshold ≤ k := by omega
              refine ⟨?_, ?_⟩
              · rw [em.1, hb1, if_neg hk0]
                unfold gaQ
                simp [hm', e]
              · rw [hb2 (by omega)]
                unfold gaQ
                simp [hm', e]
      refine ⟨?_, fun _ => by rw [hw.cum]; exact key.2⟩
      rw [if_neg (by omega), ← key.1]
      have hO := hw.oracle
      generalize gaPhero v A (b.g + 1) (gaStored A m1 arch1) b.cum = ph at hO
      generalize c.m = cm at hO ⊢
      generalize c.arch = ca at hO
      cases hO with
      | same _ => rfl
      | update _ => unfold gaStored; split <;> rfl

/-- A generation: every new point is made from the rows of the archive. -/
theorem gaFull_bred {v : GaEnv K σ} {R X : K → K} (hF : GaFns v R X) {P : AProb K} (hP : FiniteBox P) {A : Gaco K} {f : K} (hf : A.focus = .fin f)
    (hmk : A.nGenMark + 1 < 2 ^ 32) {tol : List (Fl K)} {n : Nat} (hk2 : 2 ≤ A.ker) (hk : A.ker ≤ n) {a b : GaState K} (h : GaFull v P A tol n a b) (ha : GaNum P A a)
    {q : K} (hq : 0 < q) (hcum : b.cum = gaCum v (.fin q) A.ker) {t : Nat} (ht : (if A.memory then a.m.counter else a.g + 1) = t) (ht1 : 1 ≤ t) :
    ∃ mark, 1 ≤ mark ∧ mark ≤ max 1 A.nGenMark ∧ ∀ x ∈ b.xs, GaBred v R X P f q A.ker t mark (b.arch.map (fun r => (gaInd P r).1)) x := by
  obtain ⟨hpa, hpb, haa, -, ps, sl, m1, arch1, sig, check, hw⟩ := h
  obtain ⟨h1, h2⟩ := gaArchived_arch hpa hw.sorted.perm hk haa hw.archived
  obtain ⟨-, hsame, -, -⟩ := gaOracled_arch h1 hw.oracle
  have hrows : b.arch.map (fun r => (gaInd P r).1) = arch1.map (fun r => (gaInd P r).1) := by
    have := congrArg (List.map Prod.fst) hsame
    rw [List.map_map, List.map_map] at this
    exact this
  rw [hrows]
  obtain ⟨q', hq'⟩ := gaPhero_mem v A (a.g + 1) (gaStored A m1 arch1) a.cum
  have har1 : ∀ r ∈ arch1, AllFin (gaInd P r).1 := by
    intro r hr
    rcases h2 r hr with h | h
    · obtain ⟨j, hj, rfl⟩ := List.mem_map.mp h
      exact ha.xs _ (List.of_mem_zip (gaRowOf_ind hpa ps (List.mem_range.mp (hw.sorted.perm.mem_iff.mp (List.mem_of_mem_take hj)))).2).1
    · exact ha.arch r h
  have hmark1 : 1 ≤ m1.mark ∧ m1.mark ≤ max 1 A.nGenMark := by
    have step : 1 ≤ gaMark A a.m ∧ gaMark A a.m ≤ max 1 A.nGenMark := by
      have := ha.mark
      unfold gaMark incU
      dsimp only
      have e : (a.m.mark + 1) % 2 ^ 32 = a.m.mark + 1 := Nat.mod_eq_of_lt (by omega)
      rw [e]
      split <;> split <;> omega
    have hA := hw.archived
    cases hA with
    | fill _ => exact ha.mark
    | merge _ _ _ => exact step
    | keep _ _ => exact step
  have hm2 : (gaPhero v A (a.g + 1) (gaStored A m1 arch1) a.cum).1.mark = m1.mark ∧ (gaPhero v A (a.g + 1) (gaStored A m1 arch1) a.cum).1.counter = a.m.counter := by
    rw [hq']
    have : m1.counter = a.m.counter := by cases hw.archived <;> rfl
    unfold gaStored
    split <;> exact ⟨rfl, this⟩
  refine ⟨m1.mark, hmark1.1, hmark1.2, ?_⟩
  intro x hx
  obtain ⟨u, k, row, hu0, hu1, hpick, hrow, hxl, hgene⟩ := hw.ants x hx
  rw [← hw.cum, hcum, gaCum_exact hF hq (by omega)] at hpick
  obtain ⟨k', hk1, hk2', hk3, hk4⟩ := gaPick_exact hk2 (cs := (List.range A.ker).map (fun k => gaShare X q A.ker (k + 1))) (by simp) u
  rw [hpick] at hk1
  obtain rfl := Outcome.ok.inj hk1
  have cs : ∀ i, i < A.ker → ((List.range A.ker).map (fun k => gaShare X q A.ker (k + 1))).getD i 0 = gaShare X q A.ker (i + 1) := by
    intro i hi
    rw [List.getD_eq_getElem _ _ (by simpa using hi)]
    simp
  refine ⟨hxl, k, u, (gaInd P row).1, hk2', hu0, hu1, ?_, ?_, by rw [List.getElem?_map, hrow]; rfl, ?_⟩
  · rcases Nat.eq_zero_or_pos k with h | h
    · exact Or.inl h
    · rw [cs _ (by omega), show k - 1 + 1 = k by omega] at hk3
      exact hk3
  · rw [cs _ hk2'] at hk4
    exact hk4
  intro h hh
  have hhx : h < x.length := by omega
  obtain ⟨c, s, lo, hi, g1, g2, g3, g4, zs, z, -, -, -, hval⟩ := hgene h x[h] (List.getElem?_eq_getElem hhx)
  obtain ⟨lo', rfl⟩ := hP.finL lo (List.mem_of_getElem? g3)
  obtain ⟨hi', rfl⟩ := hP.finU hi (List.mem_of_getElem? g4)
  obtain ⟨sig', e1, e2, e3⟩ := gaSigma_ok (v := v) hP.bounds hP.nx hk2 h1 (a.g + 1) (gaPhero v A (a.g + 1) (gaStored A m1 arch1) a.cum).1
  rw [hw.sigma] at e1
  obtain rfl := Outcome.ok.inj e1
  obtain ⟨lo2, hi2, d, d1, d2, d3, rfl⟩ := e3 h s g2
  rw [g3, Option.some.injEq] at d1
  rw [g4, Option.some.injEq] at d2
  subst d1 d2
  obtain ⟨col, c1, c2, -⟩ := gaCol_fin h1 har1 hh
  obtain ⟨dl, dh, s1, s2⟩ := gaSpread_exact hk2 c2
  rw [c1, hF.op, s1] at d3
  obtain rfl := Outcome.ok.inj d3
  have hrm := List.mem_of_getElem? hrow
  have hrl := h1.2 row hrm
  have hch : (gaInd P row).1[h]? = some c := by
    unfold gaInd
    dsimp only
    rw [List.getElem?_take, if_pos (by omega), List.getElem?_drop]
    exact g1
  obtain ⟨c', rfl⟩ := har1 row hrm c (List.mem_of_getElem? hch)
  have hlohi : lo' ≤ hi' := by
    obtain ⟨-, -, hle⟩ := hP.bounds.ordered h _ _ g3 g4
    exact Fl.fin_le_fin.mp hle
  refine ⟨col, c', lo', hi', dl, dh, z, ?_, s2, hch, g3, g4, ?_⟩
  · rw [← c1]
    unfold gaCol
    rw [List.map_map]
    refine List.map_congr_left ?_
    intro r hr
    have := h1.2 r hr
    show (gaInd P r).1.getD h .nan = _
    unfold gaInd
    dsimp only
    rw [List.getD_eq_getElem?_getD, List.getElem?_take, if_pos hh, List.getElem?_drop, ← List.getD_eq_getElem?_getD]
  · rw [List.getElem?_eq_getElem hhx, hval]
    dsimp only
    have hdev : gaDev v P A (a.g + 1) (gaPhero v A (a.g + 1) (gaStored A m1 arch1) a.cum).1 h (.fin lo') (.fin hi') (.fin dl) (.fin dh) =
        .fin (gaSd R P f t m1.mark h lo' hi' dl dh) := by
      rw [gaDev_exact hF hf (by rw [hm2.1]; exact hmark1.1) _ _ hh, hm2.1, hm2.2, ht]
      unfold gaSd
      congr 1
      have : t ≠ 0 := by omega
      simp [this]
    rw [hdev, hF.op, ex_mul, ex_add]
    have hcl : gaClamp (.fin lo') (.fin hi') (Fl.fin (c' + gaSd R P f t m1.mark h lo' hi' dl dh * z)) =
        .fin (min hi' (max lo' (c' + gaSd R P f t m1.mark h lo' hi' dl dh * z))) := by
      generalize c' + gaSd R P f t m1.mark h lo' hi' dl dh * z = y
      unfold gaClamp
      dsimp only
      have lt : ∀ p q : K, Fl.lt (Fl.fin p) (.fin q) = true ↔ p < q := by intro p q; simp [Fl.lt]
      have gt : ∀ p q : K, Fl.gt (Fl.fin p) (.fin q) = true ↔ q < p := by intro p q; simp [Fl.gt, Fl.lt]
      have e1 : (if Fl.lt (Fl.fin y) (.fin lo') = true then Fl.fin lo' else Fl.fin y) = .fin (max lo' y) := by
        by_cases hy : y < lo'
        · rw [if_pos ((lt _ _).mpr hy), max_eq_left hy.le]
        · rw [if_neg (by rw [lt]; exact hy), max_eq_right (not_lt.mp hy)]
      rw [e1]
      by_cases hy2 : hi' < max lo' y
      · rw [if_pos ((gt _ _).mpr hy2), min_eq_left hy2.le]
      · rw [if_neg (by rw [gt]; exact hy2), min_eq_right (not_lt.mp hy2)]
    rw [hcl]
    by_cases hlt : h < P.info.nx - P.nix
    · rw [if_neg (by omega), if_pos hlt]
    · rw [if_pos (by omega), if_neg hlt]

theorem gaSteps_bred {v : GaEnv K σ} {R X : K → K} (hF : GaFns v R X) (hrd : RoundOk v.rd) {P : AProb K} (hP : FiniteBox P) {A : Gaco K} {f : K} (hf : A.focus = .fin f)
    (hmk : A.nGenMark + 1 < 2 ^ 32) (hth : 1 ≤ A.threshold) {tol : List (Fl K)} {n : Nat} (hk2 : 2 ≤ A.ker) (hk : A.ker ≤ n) {a : GaState K} (ha : GaNum P A a) (hag : a.g = 0)
    (hcnt : A.memory = true → 1 ≤ a.m.counter) {q0 : K} (hq : a.m.q = .fin q0) (hq0 : 0 < q0) :
    ∀ (k : Nat) (b : GaState K) (G : List (List (List (Fl K) × List (Fl K)))), Steps (GaFull v P A tol n) k a b → G.length = k → (∀ g ∈ G, g.length = n) →
      b.evs = a.evs ++ asCalls G.flatten → ∀ (i : Nat) (g : List (List (Fl K) × List (Fl K))), G[i]? = some g →
        ∃ (rows : List (List (Fl K))) (mark : Nat), rows.length = A.ker ∧
          (∀ r ∈ rows, r ∈ a.xs ++ (G.take i).flatten.map Prod.fst ∨ 2 ≤ a.m.counter ∧ r ∈ (gaStart A a.m a.arch).map (fun r => (gaInd P r).1)) ∧
          1 ≤ mark ∧ mark ≤ max 1 A.nGenMark ∧
          ∀ p ∈ g, GaBred v R X P f (gaQ A q0 a.m.counter (i + 1)) A.ker (if A.memory then a.m.counter else i + 1) mark rows p.1 := by
  intro k
  induction k with
  | zero => intro b G _ hl _ _ i g hg; rw [List.length_eq_zero_iff.mp hl] at hg; simp at hg
  | succ k ih =>
    intro c G h hl hn hev i g hgi
    have hfull := h
    cases h with
    | snoc h hS =>
      rename_i b
      obtain ⟨hbg, hbc, hbst, G0, hl0, hn0, he0, hpop0, -⟩ := gaSteps_gens hk hag _ _ h
      obtain ⟨-, -, -, G1, hl1, hn1, he1, -, harch⟩ := gaSteps_gens hk hag _ _ hfull
      have hG1 : G1 = G := by
        refine gaFlatten_inj (by omega) hn1 hn ?_
        rw [hev] at he1
        exact (asCalls_inj (List.append_cancel_left he1)).symm
      subst hG1
      have hpb := hS.popB
      have hmade := hS.made
      have hG : G1 = G0 ++ [c.xs.zip c.fs] := by
        obtain ⟨ps, sl, m1, arch1, sig, check, hw⟩ := hmade
        have e := hw.ev
        rw [hev, he0, List.append_assoc] at e
        have e' := List.append_cancel_left e
        have e'' : G1.flatten = (G0 ++ [c.xs.zip c.fs]).flatten := asCalls_inj (by rw [e']; simp [asCalls])
        refine gaFlatten_inj ?_ hn ?_ e''
        · simp [hl, hl0]
        · intro g hg
          rcases List.mem_append.mp hg with h | h
          · exact hn0 g h
          · rw [List.mem_singleton.mp h, List.length_zip, hpb.xl, hpb.fl, Nat.min_self]
      subst hG
      have hi : i < (G0 ++ [c.xs.zip c.fs]).length := (List.getElem?_eq_some_iff.mp hgi).1
      rw [List.length_append, List.length_singleton, hl0] at hi
      rcases Nat.lt_or_ge i k with hik | hik
      · rw [List.getElem?_append_left (by omega)] at hgi
        obtain ⟨rows, mark, r1, r2, r3⟩ := ih b G0 h hl0 hn0 he0 i g hgi
        refine ⟨rows, mark, r1, ?_, r3⟩
        rw [List.take_append_of_le_length (by omega)]
        exact r2
      · have hik' : i = k := by omega
        subst hik'
        rw [List.getElem?_append_right (by omega), hl0, Nat.sub_self, List.getElem?_cons_zero, Option.some.injEq] at hgi
        subst hgi
        obtain ⟨-, hcum⟩ := gaFull_q hth hag hq _ _ hk hfull
        have hq1 : 0 < gaQ A q0 a.m.counter (i + 1) := by
          unfold gaQ
          split <;> split <;> first | exact hq0 | norm_num
        obtain ⟨hnum, -⟩ := gaSteps_num hF hrd hP hf hmk hk2 hk ha _ _ h
        obtain ⟨mark, k1, k2, k3⟩ := gaFull_bred hF hP hf hmk hk2 hk hS hnum hq1 (hcum (by omega)) (t := if A.memory then a.m.counter else i + 1)
          (by rw [hbc, hbg]) (by split <;> [exact hcnt ‹_›; omega])
        refine ⟨c.arch.map (fun r => (gaInd P r).1), mark, by rw [List.length_map, hS.archB.2.1], ?_, k1, k2, fun p hp => k3 _ (List.of_mem_zip hp).1⟩
        intro r hr
        obtain ⟨r', hr', rfl⟩ := List.mem_map.mp hr
        rw [show i = G0.length from hl0.symm, List.take_left]
        rcases harch (by omega) r' hr' with h | ⟨h1, h2⟩
        · left
          rw [List.dropLast_concat] at h
          rcases List.mem_append.mp h with h | h
          · exact List.mem_append_left _ (List.of_mem_zip h).1
          · exact List.mem_append_right _ (List.mem_map_of_mem h)
        · right
          obtain ⟨r2, h3, h4⟩ := List.mem_map.mp h2
          exact ⟨h1, List.mem_map.mpr ⟨r2, h3, by rw [h4]⟩⟩

/-- C115. How the points of a run are made (exact arithmetic, finite bounds). In every generation there are `ker` rows, each a chromosome of the population or of an
earlier generation (or of the archive of the calls before, with memory). Each new point is drawn around one of them: row `k` is chosen if a uniform number is
within the share of the weights (see `C115_weights`) that belongs to it; a component is that of the row plus a normal number times the standard deviation
`gaSd`, moved to the bounds, rounded for an integer variable. `q` is the parameter first and 0.01 from the generation `threshold` on. -/
theorem C115_ants (v : GaEnv K σ) (R X : K → K) (hF : GaFns v R X) (rep : K → Prop) (hg : v.g.Lawful rep) (hsrt : ValidSort v.srt) (hrd : RoundOk v.rd) (P : AProb K)
    (hP : FiniteBox P) (hst : P.info.stochastic = false) (hnobj : P.info.nobj = 1) (A : Gaco K) (hker : 2 ≤ A.ker)
    (hgens : A.gens + 1 < 2 ^ 32) (hgens0 : A.gens ≠ 0) (hmk : A.nGenMark + 1 < 2 ^ 32) (hth : 1 ≤ A.threshold) (f : K) (hf : A.focus = .fin f)
    (bfe : Option (Batch K)) (hok : ∀ b, bfe = some b → BatchOk P b)
    (s : St K σ) (hi : Inv P.info s.pop) (hx : ∀ x ∈ s.pop.x, AllFin x) (hch : s.pop.chX ≠ []) (hk : A.ker ≤ s.pop.id.length) (m : GaMem K) (hm : GaMemOk P A m)
    (hmn : GaMemNum P A m) (hcnt : m.counter + 1 < 2 ^ 32) (hcnt0 : A.memory = false → m.counter = 0) (q0 : K) (hq : m.q = .fin q0) (hq0 : 0 < q0) (fuel : Nat) (hfuel : A.gens < fuel) :
    wp (gaEvolve v P A bfe fuel m) (fun _ s' => ∃ G : List (List (List (Fl K) × List (Fl K))), G.length ≤ A.gens ∧ (∀ g ∈ G, g.length = s.pop.id.length) ∧
      s'.evs = s.evs ++ asCalls G.flatten ∧ ∀ (i : Nat) (g : List (List (Fl K) × List (Fl K))), G[i]? = some g →
        ∃ (rows : List (List (Fl K))) (mark : Nat), rows.length = A.ker ∧
          (∀ r ∈ rows, r ∈ s.pop.x ++ (G.take i).flatten.map Prod.fst ∨ A.memory = true ∧ 1 ≤ m.counter ∧ r ∈ m.arch.map (fun r => (r.drop 1).take P.info.nx)) ∧
          1 ≤ mark ∧ mark ≤ max 1 A.nGenMark ∧
          ∀ p ∈ g, GaBred v R X P f (gaQ A q0 (m.counter + 1) (i + 1)) A.ker (if A.memory then m.counter + 1 else i + 1) mark rows p.1)
      (CmFailed (GaBox P) P bfe s) s := by
  refine (ga_run hg hsrt hrd hP.bounds hP.nx hst hnobj hker hgens hgens0 hok hi hch hk hm hfuel).mono ?_ (fun _ _ h => h)
  rintro m' s' ⟨⟨new, ht⟩, b, rfl, hcase⟩
  have e1 : (gaCount A m).arch = m.arch := by unfold gaCount; split <;> rfl
  have e2 : (gaCount A m).q = m.q := by unfold gaCount; split <;> rfl
  have e3 : A.memory = true → (gaCount A m).counter = m.counter + 1 := by
    intro h
    unfold gaCount
    rw [if_pos h]
    exact Nat.mod_eq_of_lt hcnt
  have e4 : A.memory = false → (gaCount A m).counter = 0 := by
    intro h
    unfold gaCount
    rw [if_neg (by simp [h])]
    exact hcnt0 h
  obtain ⟨k, b1, s1, hmid, he, hkg⟩ : ∃ (k : Nat) (b1 : GaVars K) (s1 : St K σ), GaMid v P A (gaInit P A m) s k b1 s1 ∧ s1.evs = s'.evs ∧ k ≤ A.gens := by
    rcases hcase with ⟨s1, hmid, hend⟩ | ⟨k, hk1, hk2, b1, hmid, hstop, rfl⟩
    · exact ⟨_, _, _, hmid, hend.evs.symm, le_rfl⟩
    · exact ⟨_, b1, _, hmid, rfl, by omega⟩
  obtain ⟨g1, g2, g3, G, hl, hn, hev, hpop, -⟩ := gaSteps_gens hk rfl _ _ hmid.run
  have hb := gaSteps_bred hF hrd hP hf hmk hth hker hk (gaInit_num hmn hx) rfl (fun h => by show 1 ≤ (gaCount A m).counter; rw [e3 h]; omega)
    (by show (gaCount A m).q = _; rw [e2, hq]) hq0 _ _ G hmid.run hl hn hev
  refine ⟨G, by omega, hn, by rw [← he]; exact hev, ?_⟩
  intro i g hgi
  obtain ⟨rows, mark, r1, r2, r3, r4, r5⟩ := hb i g hgi
  refine ⟨rows, mark, r1, ?_, r3, r4, ?_⟩
  · intro r hr
    rcases r2 r hr with h | ⟨h1, h2⟩
    · exact Or.inl h
    · right
      change 2 ≤ (gaCount A m).counter at h1
      by_cases hmem : A.memory = true
      · rw [e3 hmem] at h1
        change r ∈ (gaStart A (gaCount A m) _).map _ at h2
        unfold gaStart at h2
        rw [if_pos ⟨hmem, by rw [e3 hmem]; omega⟩, e1] at h2
        exact ⟨hmem, by omega, h2⟩
      · rw [e4 (by simpa using hmem)] at h1
        omega
  · intro p hp
    have := r5 p hp
    change GaBred v R X P f (gaQ A q0 (gaCount A m).counter (i + 1)) A.ker (if A.memory then (gaCount A m).counter else i + 1) mark rows p.1 at this
    by_cases hmem : A.memory = true
    · rw [e3 hmem] at this
      exact this
    · unfold gaQ at this ⊢
      simp only [hmem, if_false] at this ⊢
      exact this
/-- C115. An archive of two rows is accepted by the constructor, but then (without focus and integers) nothing new is ever evaluated: there is only one distance
between two rows, so the standard deviations are zero, and all points of a run are copies of the individuals there were. -/
theorem C115_two_rows (v : GaEnv K σ) (R X : K → K) (hF : GaFns v R X) (rep : K → Prop) (hg : v.g.Lawful rep) (hsrt : ValidSort v.srt) (hrd : RoundOk v.rd) (P : AProb K)
    (hP : FiniteBox P) (hst : P.info.stochastic = false) (hnobj : P.info.nobj = 1) (hnix : P.nix = 0) (A : Gaco K) (hker : A.ker = 2)
    (hgens : A.gens + 1 < 2 ^ 32) (hgens0 : A.gens ≠ 0) (hmk : A.nGenMark + 1 < 2 ^ 32) (hth : 1 ≤ A.threshold) (hf : A.focus = .fin 0) (hmem : A.memory = false)
    (bfe : Option (Batch K)) (hok : ∀ b, bfe = some b → BatchOk P b)
    (s : St K σ) (hi : Inv P.info s.pop) (hx : ∀ x ∈ s.pop.x, AllFin x ∧ InBox P.lb P.ub P.nix x) (hch : s.pop.chX ≠ []) (hk : 2 ≤ s.pop.id.length) (m : GaMem K)
    (hmn : GaMemNum P A m) (hcnt0 : m.counter = 0) (q0 : K) (hq : m.q = .fin q0) (hq0 : 0 < q0) (fuel : Nat) (hfuel : A.gens < fuel) :
    wp (gaEvolve v P A bfe fuel m) (fun _ s' => ∃ new : List (ECall K), s'.evs = s.evs ++ new ∧ ∀ p ∈ new, p.1 ∈ s.pop.x) (CmFailed (GaBox P) P bfe s) s := by
  refine (C115_ants v R X hF rep hg hsrt hrd P hP hst hnobj A (by omega) hgens hgens0 hmk hth 0 hf bfe hok s hi (fun x h => (hx x h).1) hch (by omega) m
    (fun h => by rw [hmem] at h; cases h) hmn (by omega) (fun _ => hcnt0) q0 hq hq0 fuel hfuel).mono ?_ (fun _ _ h => h)
  rintro m' s' ⟨G, -, -, hev, hall⟩
  have key : ∀ i j : Nat, j < i → ∀ g : List (List (Fl K) × List (Fl K)), G[j]? = some g → ∀ p ∈ g, p.1 ∈ s.pop.x := by
    intro i
    induction i with
    | zero => intro j hj; omega
    | succ i ih =>
      intro j hj g hgj p hp
      rcases Nat.lt_or_ge j i with h | h
      · exact ih j h g hgj p hp
      have : j = i := by omega
      subst this
      obtain ⟨rows, mark, r1, r2, -, -, r3⟩ := hall j g hgj
      obtain ⟨hxl, k, u, row, -, -, -, -, -, hrow, hcomp⟩ := r3 p hp
      have hrm : row ∈ s.pop.x := by
        rcases r2 row (List.mem_of_getElem? hrow) with h | ⟨h, -⟩
        · rcases List.mem_append.mp h with h | h
          · exact h
          · obtain ⟨p', hp', rfl⟩ := List.mem_map.mp h
            obtain ⟨g', hg', hpg⟩ := List.mem_flatten.mp hp'
            obtain ⟨l, hl, rfl⟩ := List.getElem_of_mem hg'
            have hl' : l < j := by rw [List.length_take] at hl; omega
            exact ih l hl' _ (by rw [← List.getElem?_take_of_lt hl', List.getElem?_eq_getElem hl]) p' hpg
        · rw [hmem] at h; cases h
      have hrl : row.length = P.info.nx := hi.wf.dimX row hrm
      have : p.1 = row := by
        apply List.ext_getElem?
        intro h
        rcases Nat.lt_or_ge h P.info.nx with hh | hh
        · obtain ⟨col, c, lo, hi', dmin, dmax, z, c1, c2, c3, c4, c5, c6⟩ := hcomp h hh
          have hcl : col.length = 2 := by
            have := congrArg List.length c1
            simp only [List.length_map] at this
            omega
          have hd : dmax = dmin := by
            obtain ⟨i1, j1, a1, b1, e1, e2, e3, e4⟩ := c2.least
            obtain ⟨i2, j2, a2, b2, f1, f2, f3, f4⟩ := c2.most
            have l1 := (List.getElem?_eq_some_iff.mp e3).1
            have l2 := (List.getElem?_eq_some_iff.mp f3).1
            have x1 : i1 = 0 ∧ j1 = 1 := by omega
            have x2 : i2 = 0 ∧ j2 = 1 := by omega
            rw [x1.1] at e2; rw [x1.2] at e3; rw [x2.1] at f2; rw [x2.2] at f3
            rw [e2, Option.some.injEq] at f2
            rw [e3, Option.some.injEq] at f3
            rw [e4, f4, f2, f3]
          have hsd : gaSd R P 0 (if A.memory then m.counter + 1 else j + 1) mark h lo hi' dmin dmax = 0 := by
            unfold gaSd
            rw [if_neg (by simp), if_pos (by omega), hd]
            simp
          obtain ⟨b1, b2, -⟩ := (hx row hrm).2.2 h _ _ _ c4 c5 c3
          rw [c6, c3, if_pos (by omega), hsd, zero_mul, add_zero, max_eq_right (Fl.fin_le_fin.mp b1), min_eq_right (Fl.fin_le_fin.mp b2)]
        · rw [List.getElem?_eq_none (by omega), List.getElem?_eq_none (by omega)]
      rw [this]
      exact hrm
  refine ⟨_, hev, ?_⟩
  intro p hp
  obtain ⟨p', hp', rfl⟩ := List.mem_map.mp hp
  obtain ⟨g, hg', hpg⟩ := List.mem_flatten.mp hp'
  obtain ⟨l, hl, rfl⟩ := List.getElem_of_mem hg'
  exact key (l + 1) l (by omega) _ (List.getElem?_eq_getElem hl) p' hpg

omit [IsStrictOrderedRing K] in
theorem gaPick_nan {ker : Nat} (hk : 2 ≤ ker) (u : Fl K) : gaPick ker (List.replicate ker .nan) u = .ok 0 := by
  have get : ∀ i, i < ker → Outcome.get (List.replicate ker (Fl.nan : Fl K)) i = .ok .nan := by
    intro i h
    rw [Outcome.get_of_lt (by simpa using h), List.getElem_replicate]
  have le : Fl.le u (.nan : Fl K) = false := by cases u <;> rfl
  have gt : Fl.gt u (.nan : Fl K) = false := by cases u <;> rfl
  unfold gaPick
  rw [get 0 (by omega), Outcome.bind_ok, le, if_neg (by simp), get _ (by omega), Outcome.bind_ok, gt, if_neg (by simp)]
  have : ∀ l : List Nat, (∀ k ∈ l, k < ker) → l.foldlM (gaPickStep (List.replicate ker (Fl.nan : Fl K)) u) 0 = .ok 0 := by
    intro l
    induction l with
    | nil => intro _; rfl
    | cons a l ih =>
      intro h
      rw [List.foldlM_cons]
      unfold gaPickStep
      have := h a (by simp)
      rw [get _ (by omega), Outcome.bind_ok, get _ this, Outcome.bind_ok, gt, Bool.false_and, if_neg (by simp)]
      exact ih (fun k hk => h k (by simp [hk]))
  exact this _ (fun k hk => by have := List.mem_range'_1.mp hk; omega)

/-- C115. `q = 0` is accepted by the constructor, but then the weights are NaN (0 divided by 0) and the first row is chosen every time, whatever is drawn. -/
theorem C115_zero : gaCtor 2 3 (.fin (0 : ℚ)) (.fin 0) (.fin 0) 2 7 0 0 (.fin 0) false = .ok (gaDemoPars false, { gaDemoMem with q := .fin 0 }) ∧
    gaCum gaDemoEnv (.fin 0) 3 = List.replicate 3 .nan ∧ ∀ u : Fl ℚ, gaPick 3 (List.replicate 3 .nan) u = .ok 0 :=
  ⟨by decide +kernel, by decide +kernel, fun u => gaPick_nan (by decide) u⟩

example := C115_weights gaDemo_fns (q := 1) (by norm_num) (ker := 3) (by norm_num)

example (e : List ℚ) := C115_ants gaDemoEnv _ _ gaDemo_fns _ demoGen_lawful insSort_valid sgaRound_ok algDemo algDemo_finiteBox rfl rfl (gaDemoPars true) (by decide)
  (by decide) (by decide) (by decide) (by decide) 0 rfl none (by simp) (gaDemoSt e) algDemo_inv (gaDemo_fin e).1 (by simp [gaDemoSt, algDemoSt])
  (by simp [gaDemoSt, algDemoSt, gaDemoPars]) gaDemoMem gaDemo_memOk (gaDemo_memNum _) (by decide) (by decide) 1 rfl (by norm_num) 3 (by decide)

/-- Two rows, the individuals 3, 1 and 2: whatever is drawn, only 1 and 2 are evaluated again. -/
example : ((gaEvolve gaDemoEnv algDemo { gaDemoPars false with ker := 2 } none 3 gaDemoMem (gaDemoSt [0, 5, 1, -7, 0, 2, 1, 1, 1, 1])).2.evs.map Prod.fst) =
    [[.fin 1], [.fin 2], [.fin 1], [.fin 1], [.fin 1], [.fin 1]] := by
  decide +kernel

end Verif.Props
