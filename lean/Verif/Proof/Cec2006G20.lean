import Verif.Proof.Cec2006Min

/-!
# The CEC 2006 problems: g20 has no feasible point
-/

set_option autoImplicit false

namespace Verif.Props

open Verif Verif.Cec06 Verif.Analytic Verif.Spec

theorem g20_none {p : Cec06.Prob} (h : Cec06.construct 20 = .ok p) {x : List ℝ} (hx : InBox p.lb p.ub x) {f : Option ℝ} {cs : List (Option ℝ)}
    (hf : Cec06.fitness p x = .ok (f :: cs)) (hF : Feas 0 p.nec cs) : False := by
  have hp : p = _ := (Outcome.ok.inj h).symm
  have hl : x.length = p.dim := hx.1.trans (cec_lengths h).2.1
  obtain ⟨ts, f', cs', k1, k2, k3, k4, k5, k6⟩ := fitness_wf (cec_shape h).1 hl
  rw [hf] at k4; cases k4
  have hc : ∀ (i : Nat) (e : E), con20[i]? = some e → e.Def x ts ∧ e.val x ts ≤ 0 ∧ (i < 14 → 0 ≤ e.val x ts) := by
    intro i e he
    obtain ⟨o, h1, h2⟩ := k6 i e (by rw [hp]; exact he)
    obtain ⟨v, rfl, h3, h4⟩ := hF i o h2
    obtain ⟨h5, rfl⟩ := def_eval e v h1
    refine ⟨h5, h3, fun hi => ?_⟩
    have := h4 (by rw [hp]; exact hi)
    linarith
  have hn : 24 ≤ x.length := by rw [hl, hp]
  have ht : runTemps x [] temps20 = .ok ts := by
    have : p.temps = temps20 := by rw [hp]; rfl
    rw [← k1, this]
  have hb : ∀ i, i < 24 → 0 ≤ at0 x i := by
    intro i hi
    have b := box_at hx
    rw [hp] at b
    have := (b i 0.0 10.0 (by interval_cases i <;> rfl) (by interval_cases i <;> rfl)).1
    norm_num at this; exact this
  clear k6 hF k5 k3 k2 k1 hf hp hl hx h
  have hpoly : temps20.all (fun e => e.poly 24) = true := by decide +kernel
  have hd := fun (e : E) (he : e ∈ temps20) (ts : List (Option ℝ)) => eval_def (ts := ts) e (def_poly hn e (List.all_eq_true.mp hpoly e he))
  have hts : ∃ t1 t2 t3 : List (Option ℝ), ts = [some ((temps20.getD 0 0).val x []), some ((temps20.getD 1 0).val x t1),
      some ((temps20.getD 2 0).val x t2), some ((temps20.getD 3 0).val x t3)] := by
    simp only [temps20] at ht hd
    simp only [runTemps] at ht
    rw [hd _ (by simp), Outcome.bind_ok, hd _ (by simp), Outcome.bind_ok, hd _ (by simp), Outcome.bind_ok, hd _ (by simp), Outcome.bind_ok] at ht
    cases ht
    exact ⟨_, _, _, rfl⟩
  obtain ⟨t1, t2, t3, hts⟩ := hts
  have T0 : tat ts 0 = (temps20.getD 0 0).val x [] := by rw [hts]; rfl
  have T1 : tat ts 1 = (temps20.getD 1 0).val x t1 := by rw [hts]; rfl
  have T2 : tat ts 2 = (temps20.getD 2 0).val x t2 := by rw [hts]; rfl
  have T3 : tat ts 3 = (temps20.getD 3 0).val x t3 := by rw [hts]; rfl
  simp [temps20, List.range_succ, List.range', b20, d20] at T0 T1 T2 T3
  clear hts hd ht hpoly
  have g0 := hc 0 _ rfl
  have g1 := hc 1 _ rfl
  have g2 := hc 2 _ rfl
  have g3 := hc 3 _ rfl
  have g4 := hc 4 _ rfl
  have g5 := hc 5 _ rfl
  have g6 := hc 6 _ rfl
  have g7 := hc 7 _ rfl
  have g8 := hc 8 _ rfl
  have g9 := hc 9 _ rfl
  have g10 := hc 10 _ rfl
  have g11 := hc 11 _ rfl
  have g12 := hc 12 _ rfl
  have g13 := hc 13 _ rfl
  have g14 := hc 14 _ rfl
  have g15 := hc 15 _ rfl
  have g16 := hc 16 _ rfl
  have g17 := hc 17 _ rfl
  have g18 := hc 18 _ rfl
  have g19 := hc 19 _ rfl
  clear hc
  simp [b20, c20, e20] at g0
  simp [b20, c20, e20] at g1
  simp [b20, c20, e20] at g2
  simp [b20, c20, e20] at g3
  simp [b20, c20, e20] at g4
  simp [b20, c20, e20] at g5
  simp [b20, c20, e20] at g6
  simp [b20, c20, e20] at g7
  simp [b20, c20, e20] at g8
  simp [b20, c20, e20] at g9
  simp [b20, c20, e20] at g10
  simp [b20, c20, e20] at g11
  simp [b20, c20, e20] at g12
  simp [b20, c20, e20] at g13
  simp [b20, c20, e20] at g14
  simp [b20, c20, e20] at g15
  simp [b20, c20, e20] at g16
  simp [b20, c20, e20] at g17
  simp [b20, c20, e20] at g18
  simp [b20, c20, e20] at g19
  have p0 := hb 0 (by norm_num)
  have p1 := hb 1 (by norm_num)
  have p2 := hb 2 (by norm_num)
  have p3 := hb 3 (by norm_num)
  have p4 := hb 4 (by norm_num)
  have p5 := hb 5 (by norm_num)
  have p6 := hb 6 (by norm_num)
  have p7 := hb 7 (by norm_num)
  have p8 := hb 8 (by norm_num)
  have p9 := hb 9 (by norm_num)
  have p10 := hb 10 (by norm_num)
  have p11 := hb 11 (by norm_num)
  have p12 := hb 12 (by norm_num)
  have p13 := hb 13 (by norm_num)
  have p14 := hb 14 (by norm_num)
  have p15 := hb 15 (by norm_num)
  have p16 := hb 16 (by norm_num)
  have p17 := hb 17 (by norm_num)
  have p18 := hb 18 (by norm_num)
  have p19 := hb 19 (by norm_num)
  have p20 := hb 20 (by norm_num)
  have p21 := hb 21 (by norm_num)
  have p22 := hb 22 (by norm_num)
  have p23 := hb 23 (by norm_num)
  have e40 : (40.0 : ℝ) = 40 := by norm_num
  have e2 : tat ts 2 = 1 := le_antisymm (by have := g12.2.1; norm_num at this; exact this) (by have := g12.2.2; norm_num at this; exact this)
  have n0 := g0.1.2.2.2.2
  have n1 := g0.1.1.2.2.2
  have hz : ∀ u v w : ℝ, 0 ≤ u → 0 ≤ v → 0 ≤ w → (u + v) / (tat ts 2 + w) ≤ 0 → u = 0 ∧ v = 0 := by
    intro u v w hu hv hw hh
    rw [e2] at hh
    have h1 : u + v ≤ 0 := by
      by_contra hc
      exact absurd hh (not_le.mpr (div_pos (not_le.mp hc) (by linarith)))
    exact ⟨by linarith, by linarith⟩
  obtain ⟨z0, z12⟩ := hz _ _ _ p0 p12 (by norm_num) g14.2
  obtain ⟨z1, z13⟩ := hz _ _ _ p1 p13 (by norm_num) g15.2
  obtain ⟨z2, z14⟩ := hz _ _ _ p2 p14 (by norm_num) g16.2
  obtain ⟨z6, z18⟩ := hz _ _ _ p6 p18 (by norm_num) g17.2
  obtain ⟨z7, z19⟩ := hz _ _ _ p7 p19 (by norm_num) g18.2
  obtain ⟨z8, z20⟩ := hz _ _ _ p8 p20 (by norm_num) g19.2
  rw [z0, z1, z2, z6, z7, z8] at T0 T2 T3
  rw [z12, z13, z14, z18, z19, z20] at T1 T2
  have c3 := le_antisymm g3.2.1 g3.2.2
  have c4 := le_antisymm g4.2.1 g4.2.2
  have c5 := le_antisymm g5.2.1 g5.2.2
  have c9 := le_antisymm g9.2.1 g9.2.2
  have c10 := le_antisymm g10.2.1 g10.2.2
  have c11 := le_antisymm g11.2.1 g11.2.2
  have c13 := le_antisymm g13.2.1 g13.2.2
  rw [e40] at c3 c4 c5 c9 c10 c11
  refine g20_core _ _ _ _ _ _ _ _ _ _ _ _ (tat ts 0) (tat ts 1) p3 p4 p5 p9 p10 p11 p15 p17 p22 p23 ?_ ?_ n0 n1 c3 c4 c5 c9 c10 c11 ?_ ?_
  · rw [T0]; norm_num
  · rw [T1]; norm_num
  · rw [← e2, T2]; norm_num; ring
  · rw [← c13, T3]; norm_num

end Verif.Props
