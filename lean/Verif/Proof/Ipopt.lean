import Verif.Props.Nlopt

/-!
# Lemmas about the wrapper of Ipopt
-/

set_option autoImplicit false

namespace Verif.Props

open Verif Run Prob Pop Alg

/-! ### Conversions -/

theorem ipCastPair_cases (p : Nat × Nat) :
    ipCastPair p = .ok p ∧ p.1 < 2 ^ 31 ∧ p.2 < 2 ^ 31 ∨ ipCastPair p = .throws .badCast ∧ (2 ^ 31 ≤ p.1 ∨ 2 ^ 31 ≤ p.2) := by
  unfold ipCastPair ipCast
  by_cases h1 : p.1 < 2 ^ 31
  · by_cases h2 : p.2 < 2 ^ 31
    · rw [if_pos h1, if_pos h2]; exact Or.inl ⟨rfl, h1, h2⟩
    · rw [if_pos h1, if_neg h2]; exact Or.inr ⟨rfl, Or.inr (by omega)⟩
  · rw [if_neg h1]; exact Or.inr ⟨rfl, Or.inl (by omega)⟩

theorem ipCastPairs_cases (f : Nat × Nat → Nat × Nat) (l : List (Nat × Nat)) :
    l.mapM (fun p => ipCastPair (f p)) = .ok (l.map f) ∧ (∀ p ∈ l, (f p).1 < 2 ^ 31 ∧ (f p).2 < 2 ^ 31) ∨
    l.mapM (fun p => ipCastPair (f p)) = .throws .badCast ∧ ∃ p ∈ l, 2 ^ 31 ≤ (f p).1 ∨ 2 ^ 31 ≤ (f p).2 := by
  induction l with
  | nil => exact Or.inl ⟨rfl, by simp⟩
  | cons a l ih =>
    rw [List.mapM_cons]
    rcases ipCastPair_cases (f a) with ⟨h, h1⟩ | ⟨h, h1⟩
    · rw [h, Outcome.bind_ok]
      rcases ih with ⟨h2, h3⟩ | ⟨h2, p, hp, h3⟩
      · rw [h2, Outcome.bind_ok]
        refine Or.inl ⟨rfl, fun p hp => ?_⟩
        rcases List.mem_cons.mp hp with rfl | hp
        · exact h1
        · exact h3 p hp
      · rw [h2]; exact Or.inr ⟨rfl, p, by simp [hp], h3⟩
    · rw [h]; exact Or.inr ⟨rfl, a, by simp, h1⟩

/-! ### The union of patterns -/

theorem lexLt_trichotomy (a b : Nat × Nat) : LexLt a b ∨ LexLt b a ∨ a = b := by
  rcases a with ⟨a1, a2⟩
  rcases b with ⟨b1, b2⟩
  simp only [LexLt, Prod.mk.injEq]
  omega

theorem ipUnionLoop_spec : ∀ (n : Nat) (a b : List (Nat × Nat)), a.length + b.length < n → a.Pairwise LexLt → b.Pairwise LexLt →
    (ipUnionLoop n a b).Pairwise LexLt ∧ ∀ p, p ∈ ipUnionLoop n a b ↔ p ∈ a ∨ p ∈ b := by
  intro n
  induction n with
  | zero => intro a b h; omega
  | succ n ih =>
    intro a b h ha hb
    cases a with
    | nil => exact ⟨by simpa [ipUnionLoop] using hb, by simp [ipUnionLoop]⟩
    | cons x a =>
      cases b with
      | nil => exact ⟨by simpa [ipUnionLoop] using ha, by simp [ipUnionLoop]⟩
      | cons y b =>
        obtain ⟨ha1, ha2⟩ := List.pairwise_cons.mp ha
        obtain ⟨hb1, hb2⟩ := List.pairwise_cons.mp hb
        simp only [List.length_cons] at h
        unfold ipUnionLoop
        by_cases h1 : pairLt x y = true
        · rw [if_pos h1]
          obtain ⟨i1, i2⟩ := ih a (y :: b) (by simp only [List.length_cons]; omega) ha2 hb
          have hxy := (pairLt_iff _ _).mp h1
          refine ⟨List.pairwise_cons.mpr ⟨fun p hp => ?_, i1⟩, fun p => ?_⟩
          · rcases (i2 p).mp hp with hp | hp
            · exact ha1 p hp
            · rcases List.mem_cons.mp hp with rfl | hp
              · exact hxy
              · exact lexLt_trans hxy (hb1 p hp)
          · rw [List.mem_cons, i2 p, List.mem_cons (l := a)]; tauto
        · rw [if_neg h1]
          have h1' : ¬ LexLt x y := fun h => h1 ((pairLt_iff _ _).mpr h)
          by_cases h2 : pairLt y x = true
          · rw [if_pos h2]
            obtain ⟨i1, i2⟩ := ih (x :: a) b (by simp only [List.length_cons]; omega) ha hb2
            have hyx := (pairLt_iff _ _).mp h2
            refine ⟨List.pairwise_cons.mpr ⟨fun p hp => ?_, i1⟩, fun p => ?_⟩
            · rcases (i2 p).mp hp with hp | hp
              · rcases List.mem_cons.mp hp with rfl | hp
                · exact hyx
                · exact lexLt_trans hyx (ha1 p hp)
              · exact hb1 p hp
            · rw [List.mem_cons, i2 p, List.mem_cons (l := b)]; tauto
          · rw [if_neg h2]
            have hxy : x = y := by
              rcases lexLt_trichotomy x y with h | h | h
              · exact absurd h h1'
              · exact absurd ((pairLt_iff _ _).mpr h) h2
              · exact h
            subst hxy
            obtain ⟨i1, i2⟩ := ih a b (by omega) ha2 hb2
            refine ⟨List.pairwise_cons.mpr ⟨fun p hp => ?_, i1⟩, fun p => ?_⟩
            · rcases (i2 p).mp hp with hp | hp
              · exact ha1 p hp
              · exact hb1 p hp
            · rw [List.mem_cons, i2 p, List.mem_cons, List.mem_cons]; tauto

theorem ipUnion_fold (hp : List (List (Nat × Nat))) (hs : ∀ q ∈ hp, q.Pairwise LexLt) : ∀ (acc : List (Nat × Nat)), acc.Pairwise LexLt →
    (hp.foldl ipUnion acc).Pairwise LexLt ∧ ∀ p, p ∈ hp.foldl ipUnion acc ↔ p ∈ acc ∨ ∃ q ∈ hp, p ∈ q := by
  induction hp with
  | nil => intro acc h; exact ⟨h, by simp⟩
  | cons a hp ih =>
    intro acc h
    obtain ⟨u1, u2⟩ := ipUnionLoop_spec _ acc a (Nat.lt_succ_self _) h (hs a (by simp))
    obtain ⟨i1, i2⟩ := ih (fun q hq => hs q (by simp [hq])) (ipUnion acc a) u1
    refine ⟨i1, fun p => ?_⟩
    rw [List.foldl_cons, i2 p]
    rw [show (p ∈ ipUnion acc a ↔ p ∈ acc ∨ p ∈ a) from u2 p]
    simp only [List.mem_cons, exists_eq_or_imp]
    tauto

/-! ### Merged values -/

section merge
variable {R : Type}

/-- `d` is the value at the position of the pair `l` in the pattern `ps` with the values `h`. -/
def IpHit (ps : List (Nat × Nat)) (h : List R) (l : Nat × Nat) (d : R) : Prop := ∃ m : Nat, ps[m]? = some l ∧ h[m]? = some d

theorem IpHit.tail {p l : Nat × Nat} {ps : List (Nat × Nat)} {h : List R} {x d : R} (hh : IpHit ps h l d) : IpHit (p :: ps) (x :: h) l d := by
  obtain ⟨m, h1, h2⟩ := hh
  exact ⟨m + 1, h1, h2⟩

theorem lex_ne {a b : Nat × Nat} (h : LexLt a b) : a ≠ b := by
  rintro rfl; simp [LexLt] at h

theorem lex_asymm {a b : Nat × Nat} (h : LexLt a b) (h' : LexLt b a) : False := by simp only [LexLt] at *; omega

theorem ipFirst_ok (z : R) (mul : R → R) : ∀ (ls ps : List (Nat × Nat)) (h : List R), ls.Pairwise LexLt → ps.Pairwise LexLt → (∀ p ∈ ps, p ∈ ls) →
    h.length = ps.length → ∃ r, ipFirst z mul ls ps h = .ok r ∧ r.length = ls.length ∧
      ∀ (k : Nat) (l : Nat × Nat), ls[k]? = some l → ∃ e, r[k]? = some e ∧ ((∃ d, IpHit ps h l d ∧ e = mul d) ∨ (l ∉ ps ∧ e = z)) := by
  intro ls
  induction ls with
  | nil => intro ps h _ _ _ _; exact ⟨[], by cases ps <;> rfl, rfl, by simp⟩
  | cons l ls ih =>
    intro ps h hl hp hsub hlen
    obtain ⟨hl1, hl2⟩ := List.pairwise_cons.mp hl
    cases ps with
    | nil =>
      obtain ⟨r, h1, h2, h3⟩ := ih [] h hl2 hp (by simp) hlen
      refine ⟨z :: r, by simp only [ipFirst]; rw [h1]; rfl, by simp [h2], fun k l' hk => ?_⟩
      cases k with
      | zero => exact ⟨z, rfl, Or.inr ⟨by simp, rfl⟩⟩
      | succ k => exact h3 k l' hk
    | cons p ps =>
      obtain ⟨hp1, hp2⟩ := List.pairwise_cons.mp hp
      by_cases hpl : p = l
      · subst hpl
        cases h with
        | nil => simp at hlen
        | cons d h =>
          have hsub' : ∀ q ∈ ps, q ∈ ls := by
            intro q hq
            rcases List.mem_cons.mp (hsub q (by simp [hq])) with rfl | h'
            · exact absurd rfl (lex_ne (hp1 q hq))
            · exact h'
          obtain ⟨r, h1, h2, h3⟩ := ih ps h hl2 hp2 hsub' (by simpa using hlen)
          refine ⟨mul d :: r, ?_, by simp [h2], fun k l' hk => ?_⟩
          · simp only [ipFirst]; rw [if_pos (by simp), h1]; rfl
          · cases k with
            | zero =>
              simp only [List.getElem?_cons_zero, Option.some.injEq] at hk
              subst hk
              exact ⟨mul d, rfl, Or.inl ⟨d, ⟨0, rfl, rfl⟩, rfl⟩⟩
            | succ k =>
              rw [List.getElem?_cons_succ] at hk
              obtain ⟨e, he, h4⟩ := h3 k l' hk
              refine ⟨e, he, ?_⟩
              rcases h4 with ⟨d', hd, he'⟩ | ⟨hn, he'⟩
              · exact Or.inl ⟨d', hd.tail, he'⟩
              · refine Or.inr ⟨?_, he'⟩
                simp only [List.mem_cons, not_or]
                exact ⟨fun e => lex_ne (hl1 l' (List.mem_of_getElem? hk)) e.symm, hn⟩
      · have hmem : ∀ q ∈ p :: ps, q ∈ ls := by
          have hpm : p ∈ ls := (List.mem_cons.mp (hsub p (by simp))).resolve_left hpl
          intro q hq
          rcases List.mem_cons.mp hq with rfl | hq'
          · exact hpm
          · rcases List.mem_cons.mp (hsub q hq) with rfl | h'
            · exact (lex_asymm (hl1 p hpm) (hp1 q hq')).elim
            · exact h'
        obtain ⟨r, h1, h2, h3⟩ := ih (p :: ps) h hl2 hp hmem hlen
        refine ⟨z :: r, ?_, by simp [h2], fun k l' hk => ?_⟩
        · simp only [ipFirst]
          rw [if_neg (fun hc => hpl (Prod.ext hc.1 hc.2)), h1]; rfl
        · cases k with
          | zero =>
            simp only [List.getElem?_cons_zero, Option.some.injEq] at hk
            subst hk
            exact ⟨z, rfl, Or.inr ⟨fun h => lex_ne (hl1 l (hmem l h)) rfl, rfl⟩⟩
          | succ k => exact h3 k l' hk

theorem ipAdd_ok (acc : R → R → R) : ∀ (ls ps : List (Nat × Nat)) (h vs : List R), ls.Pairwise LexLt → ps.Pairwise LexLt → (∀ p ∈ ps, p ∈ ls) →
    h.length = ps.length → vs.length = ls.length → ∃ r, ipAdd acc ls ps h vs = .ok r ∧ r.length = ls.length ∧
      ∀ (k : Nat) (l : Nat × Nat) (v : R), ls[k]? = some l → vs[k]? = some v →
        ∃ e, r[k]? = some e ∧ ((∃ d, IpHit ps h l d ∧ e = acc v d) ∨ (l ∉ ps ∧ e = v)) := by
  intro ls
  induction ls with
  | nil => intro ps h vs _ _ _ _ hv; exact ⟨vs, by cases ps <;> cases h <;> rfl, hv, by simp⟩
  | cons l ls ih =>
    intro ps h vs hl hp hsub hlen hv
    obtain ⟨hl1, hl2⟩ := List.pairwise_cons.mp hl
    cases vs with
    | nil => simp at hv
    | cons v vs =>
      have hv' : vs.length = ls.length := by simpa using hv
      cases ps with
      | nil =>
        obtain ⟨r, h1, h2, h3⟩ := ih [] h vs hl2 hp (by simp) hlen hv'
        refine ⟨v :: r, by simp only [ipAdd]; rw [h1]; rfl, by simp [h2], fun k l' v' hk hkv => ?_⟩
        cases k with
        | zero =>
          simp only [List.getElem?_cons_zero, Option.some.injEq] at hkv
          subst hkv
          exact ⟨v, rfl, Or.inr ⟨by simp, rfl⟩⟩
        | succ k => exact h3 k l' v' hk hkv
      | cons p ps =>
        obtain ⟨hp1, hp2⟩ := List.pairwise_cons.mp hp
        by_cases hpl : p = l
        · subst hpl
          cases h with
          | nil => simp at hlen
          | cons d h =>
            have hsub' : ∀ q ∈ ps, q ∈ ls := by
              intro q hq
              rcases List.mem_cons.mp (hsub q (by simp [hq])) with rfl | h'
              · exact absurd rfl (lex_ne (hp1 q hq))
              · exact h'
            obtain ⟨r, h1, h2, h3⟩ := ih ps h vs hl2 hp2 hsub' (by simpa using hlen) hv'
            refine ⟨acc v d :: r, ?_, by simp [h2], fun k l' v' hk hkv => ?_⟩
            · simp only [ipAdd]; rw [if_pos (by simp), h1]; rfl
            · cases k with
              | zero =>
                simp only [List.getElem?_cons_zero, Option.some.injEq] at hk hkv
                subst hk hkv
                exact ⟨acc v d, rfl, Or.inl ⟨d, ⟨0, rfl, rfl⟩, rfl⟩⟩
              | succ k =>
                rw [List.getElem?_cons_succ] at hk hkv
                obtain ⟨e, he, h4⟩ := h3 k l' v' hk hkv
                refine ⟨e, he, ?_⟩
                rcases h4 with ⟨d', hd, he'⟩ | ⟨hn, he'⟩
                · exact Or.inl ⟨d', hd.tail, he'⟩
                · refine Or.inr ⟨?_, he'⟩
                  simp only [List.mem_cons, not_or]
                  exact ⟨fun e => lex_ne (hl1 l' (List.mem_of_getElem? hk)) e.symm, hn⟩
        · have hmem : ∀ q ∈ p :: ps, q ∈ ls := by
            have hpm : p ∈ ls := (List.mem_cons.mp (hsub p (by simp))).resolve_left hpl
            intro q hq
            rcases List.mem_cons.mp hq with rfl | hq'
            · exact hpm
            · rcases List.mem_cons.mp (hsub q hq) with rfl | h'
              · exact (lex_asymm (hl1 p hpm) (hp1 q hq')).elim
              · exact h'
          obtain ⟨r, h1, h2, h3⟩ := ih (p :: ps) h vs hl2 hp hmem hlen hv'
          refine ⟨v :: r, ?_, by simp [h2], fun k l' v' hk hkv => ?_⟩
          · simp only [ipAdd]
            rw [if_neg (fun hc => hpl (Prod.ext hc.1 hc.2)), h1]; rfl
          · cases k with
            | zero =>
              simp only [List.getElem?_cons_zero, Option.some.injEq] at hk hkv
              subst hk hkv
              exact ⟨v, rfl, Or.inr ⟨fun h => lex_ne (hl1 l (hmem l h)) rfl, rfl⟩⟩
            | succ k => exact h3 k l' v' hk hkv

theorem ipZip_ok (f : R → R → R) : ∀ (ds vs : List R), ds.length = vs.length → ∃ r, ipZip f ds vs = .ok r ∧ r.length = vs.length ∧
    ∀ (k : Nat) (d v : R), ds[k]? = some d → vs[k]? = some v → r[k]? = some (f v d) := by
  intro ds
  induction ds with
  | nil => intro vs h; exact ⟨vs, rfl, rfl, by simp⟩
  | cons d ds ih =>
    intro vs h
    cases vs with
    | nil => simp at h
    | cons v vs =>
      obtain ⟨r, h1, h2, h3⟩ := ih vs (by simpa using h)
      refine ⟨f v d :: r, by simp only [ipZip]; rw [h1]; rfl, by simp [h2], fun k d' v' hd hv => ?_⟩
      cases k with
      | zero =>
        simp only [List.getElem?_cons_zero, Option.some.injEq] at hd hv
        subst hd hv; rfl
      | succ k => exact h3 k d' v' hd hv

end merge

/-! ### The hessian of the lagrangian -/

section lag
variable {K : Type} [Field K] [LinearOrder K]

/-- The term of one function is added at the pair `l`: the product of the entry and the weight, in the arithmetic `op`; nothing if the pair is not in the pattern. -/
def IpTerm (op : Fl.Ops K) (sp : List (Nat × Nat)) (h : List (Fl K)) (w : Fl K) (l : Nat × Nat) (a b : Fl K) : Prop :=
  (∃ d, IpHit sp h l d ∧ (b = op.add a (op.mul d w) ∨ b = op.add a (op.mul w d))) ∨ (l ∉ sp ∧ b = a)

/-- The term of the objective function: the product of the entry and the weight; zero if the pair is not in the pattern. -/
def IpBase (op : Fl.Ops K) (sp : List (Nat × Nat)) (h : List (Fl K)) (w : Fl K) (l : Nat × Nat) (b : Fl K) : Prop :=
  (∃ d, IpHit sp h l d ∧ (b = op.mul d w ∨ b = op.mul w d)) ∨ (l ∉ sp ∧ b = .fin 0)

/-- `b` is the entry of the hessian of `factor * f0 + lambda_0 * f1 + ...` at the pair `l`, added up in the arithmetic `op` from the objective to the `n`-th constraint. -/
def IpSum (op : Fl.Ops K) (hp : List (List (Nat × Nat))) (H : List (List (Fl K))) (factor : Fl K) (lambda : List (Fl K)) (l : Nat × Nat) : Nat → Fl K → Prop
  | 0, b => ∃ sp h, hp[0]? = some sp ∧ H[0]? = some h ∧ IpBase op sp h factor l b
  | n + 1, b => ∃ a sp h w, IpSum op hp H factor lambda l n a ∧ hp[n + 1]? = some sp ∧ H[n + 1]? = some h ∧ lambda[n]? = some w ∧ IpTerm op sp h w l a b

/-- The constraints are added one after the other; `step j` is the body of the loop for function `j`. -/
theorem ipLag_fold {op : Fl.Ops K} {hp : List (List (Nat × Nat))} {H : List (List (Fl K))} {factor : Fl K} {lambda : List (Fl K)} {ls : List (Nat × Nat)}
    {step : List (Fl K) → Nat → Outcome (List (Fl K))} {nc : Nat}
    (hstep : ∀ (n : Nat) (vs : List (Fl K)), n < nc → vs.length = ls.length →
      ∃ r, step vs (n + 1) = .ok r ∧ r.length = ls.length ∧ ∀ (k : Nat) (l : Nat × Nat) (a : Fl K), ls[k]? = some l → vs[k]? = some a →
        ∃ e sp h w, r[k]? = some e ∧ hp[n + 1]? = some sp ∧ H[n + 1]? = some h ∧ lambda[n]? = some w ∧ IpTerm op sp h w l a e)
    {vs0 : List (Fl K)} (h0 : vs0.length = ls.length)
    (hb : ∀ (k : Nat) (l : Nat × Nat), ls[k]? = some l → ∃ e, vs0[k]? = some e ∧ IpSum op hp H factor lambda l 0 e) :
    ∀ n : Nat, n ≤ nc → ∃ r, (List.range' 1 n).foldlM step vs0 = .ok r ∧ r.length = ls.length ∧
      ∀ (k : Nat) (l : Nat × Nat), ls[k]? = some l → ∃ e, r[k]? = some e ∧ IpSum op hp H factor lambda l n e := by
  intro n
  induction n with
  | zero => intro _; exact ⟨vs0, rfl, h0, hb⟩
  | succ n ih =>
    intro hn
    obtain ⟨r, h1, h2, h3⟩ := ih (by omega)
    obtain ⟨r', h4, h5, h6⟩ := hstep n r (by omega) h2
    refine ⟨r', ?_, h5, fun k l hk => ?_⟩
    · rw [List.range'_concat, List.foldlM_append, h1]
      show ([1 + 1 * n].foldlM step r) = _
      rw [List.foldlM_cons, show 1 + 1 * n = n + 1 by omega, h4]; rfl
    · obtain ⟨a, ha, hs⟩ := h3 k l hk
      obtain ⟨e, sp, h, w, q1, q2, q3, q4, q5⟩ := h6 k l a hk ha
      exact ⟨e, q1, a, sp, h, w, hs, q2, q3, q4, q5⟩

/-- `l` is the merged pattern of the hessians `hp`: each pair that is in one of them, once, in ascending order. -/
def IpLagOf (hp : List (List (Nat × Nat))) (l : List (Nat × Nat)) : Prop := l.Pairwise LexLt ∧ ∀ p, p ∈ l ↔ ∃ q ∈ hp, p ∈ q

/-- `l` is the part of the gradient pattern `sp` that belongs to the constraints, with rows counted from the first constraint. -/
def IpJacOf (sp l : List (Nat × Nat)) : Prop := l.map (fun p => (p.1 + 1, p.2)) = sp.filter (fun p => 1 ≤ p.1)

theorem ipLag_ok {op : Fl.Ops K} {N : IpNlp} {sparse : Bool} {hp : List (List (Nat × Nat))} {H : List (List (Fl K))} {factor : Fl K} {lambda : List (Fl K)} {nc : Nat}
    (hlag : IpLagOf hp N.lagSp) (hs : sparse = true → N.hSp = hp) (hd : sparse = false → ∀ q ∈ hp, q = N.lagSp) (hpp : ∀ q ∈ hp, q.Pairwise LexLt)
    (hpl : hp.length = nc + 1) (hH : H.map List.length = hp.map List.length) (hlam : lambda.length = nc) :
    ∃ r, ipLag op N sparse H factor lambda = .ok r ∧ r.length = N.lagSp.length ∧
      ∀ (k : Nat) (l : Nat × Nat), N.lagSp[k]? = some l → ∃ e, r[k]? = some e ∧ IpSum op hp H factor lambda l nc e := by
  have hHl : H.length = nc + 1 := by
    have := congrArg List.length hH
    simpa [hpl] using this
  have hget : ∀ n : Nat, n < nc + 1 → ∃ sp h, hp[n]? = some sp ∧ H[n]? = some h ∧ h.length = sp.length ∧ sp.Pairwise LexLt ∧ (∀ p ∈ sp, p ∈ N.lagSp) ∧ sp ∈ hp := by
    intro n hn
    have h1 : n < hp.length := by omega
    have h2 : n < H.length := by omega
    refine ⟨hp[n], H[n], List.getElem?_eq_getElem h1, List.getElem?_eq_getElem h2, ?_, hpp _ (List.getElem_mem h1),
      fun p hp' => (hlag.2 p).mpr ⟨_, List.getElem_mem h1, hp'⟩, List.getElem_mem h1⟩
    have := congrArg (fun l => l[n]?) hH
    simpa [h1, h2] using this
  obtain ⟨sp0, h0, e1, e2, e3, e4, e5, e6⟩ := hget 0 (by omega)
  unfold ipLag
  rw [Outcome.get_eq_ok_iff.mpr e2, Outcome.bind_ok, hHl, Nat.add_sub_cancel]
  cases sparse with
  | true =>
    rw [if_pos rfl, hs rfl, Outcome.get_eq_ok_iff.mpr e1, Outcome.bind_ok]
    obtain ⟨r0, q1, q2, q3⟩ := ipFirst_ok (Fl.fin (0 : K)) (fun d => op.mul d factor) N.lagSp sp0 h0 hlag.1 e4 e5 e3
    rw [q1, Outcome.bind_ok]
    refine ipLag_fold (nc := nc) (fun n vs hn hvs => ?_) q2 (fun k l hk => ?_) nc (Nat.le_refl _)
    · obtain ⟨sp, h, f1, f2, f3, f4, f5, _⟩ := hget (n + 1) (by omega)
      have hl : n < lambda.length := by omega
      obtain ⟨r, g1, g2, g3⟩ := ipAdd_ok (fun v d => op.add v (op.mul d lambda[n])) N.lagSp sp h vs hlag.1 f4 f5 f3 hvs
      refine ⟨r, ?_, g2, fun k l a hk ha => ?_⟩
      · rw [Outcome.get_eq_ok_iff.mpr f1, Outcome.bind_ok, Outcome.get_eq_ok_iff.mpr f2, Outcome.bind_ok, Nat.add_sub_cancel, Outcome.get_of_lt hl]
        exact g1
      · obtain ⟨e, he, h4⟩ := g3 k l a hk ha
        refine ⟨e, sp, h, lambda[n], he, f1, f2, List.getElem?_eq_getElem hl, ?_⟩
        exact h4.imp (fun ⟨d, hd, he⟩ => ⟨d, hd, Or.inl he⟩) id
    · obtain ⟨e, he, h4⟩ := q3 k l hk
      exact ⟨e, he, sp0, h0, e1, e2, h4.imp (fun ⟨d, hd, he⟩ => ⟨d, hd, Or.inl he⟩) id⟩
  | false =>
    have hsp0 := hd rfl sp0 e6
    rw [if_neg (by simp), if_neg (by rw [e3, hsp0]; simp)]
    refine ipLag_fold (nc := nc) (fun n vs hn hvs => ?_) (by rw [List.length_map, e3, hsp0]) (fun k l hk => ?_) nc (Nat.le_refl _)
    · obtain ⟨sp, h, f1, f2, f3, f4, f5, f6⟩ := hget (n + 1) (by omega)
      have hsp := hd rfl sp f6
      subst hsp
      have hl : n < lambda.length := by omega
      obtain ⟨r, g1, g2, g3⟩ := ipZip_ok (fun v d => op.add v (op.mul lambda[n] d)) h vs (by rw [f3, hvs])
      refine ⟨r, ?_, by rw [g2, hvs], fun k l a hk ha => ?_⟩
      · rw [Outcome.get_eq_ok_iff.mpr f2, Outcome.bind_ok, Nat.add_sub_cancel, Outcome.get_of_lt hl]
        exact g1
      · have hkl : k < h.length := by rw [f3]; exact (List.getElem?_eq_some_iff.mp hk).1
        exact ⟨_, N.lagSp, h, lambda[n], g3 k h[k] a (List.getElem?_eq_getElem hkl) ha, f1, f2, List.getElem?_eq_getElem hl,
          Or.inl ⟨h[k], ⟨k, hk, List.getElem?_eq_getElem hkl⟩, Or.inr rfl⟩⟩
    · subst hsp0
      have hkl : k < h0.length := by rw [e3]; exact (List.getElem?_eq_some_iff.mp hk).1
      exact ⟨op.mul factor h0[k], by rw [List.getElem?_map, List.getElem?_eq_getElem hkl]; rfl, N.lagSp, h0, e1, e2,
        Or.inl ⟨h0[k], ⟨k, hk, List.getElem?_eq_getElem hkl⟩, Or.inr rfl⟩⟩

end lag

/-! ### The constructor -/

theorem hessiansSparsity_cases {K : Type} (p : Problem K) (now : Option (List (List (Nat × Nat)))) :
    (∃ hp, hessiansSparsity p now = .ok hp ∧ (∀ h, now = some h → hp = h)) ∨ hessiansSparsity p now = .throws .invalidArgument := by
  cases now with
  | none => exact Or.inl ⟨_, rfl, fun g h => by cases h⟩
  | some g =>
    simp only [hessiansSparsity]
    have hc := C22_checks p.nf p.nx [] g
    by_cases hg : g.length = p.nf ∧ ∀ h ∈ g, HessPattern p.nx h
    · rw [hc.2.2.1.mpr hg, Outcome.bind_ok]
      by_cases hl : g.map List.length ≠ p.hsDim
      · rw [if_pos hl]; exact Or.inr rfl
      · rw [if_neg hl]; exact Or.inl ⟨g, rfl, fun g' h => by cases h; rfl⟩
    · rw [hc.2.2.2.1.mpr hg]; exact Or.inr rfl

theorem takeLower_eq (sp : List (Nat × Nat)) (key : Nat × Nat) : sp.take (nlLower sp key) = sp.takeWhile (fun p => pairLt p key) := by
  rw [nlLower_eq]
  induction sp with
  | nil => rfl
  | cons a l ih =>
    by_cases h : pairLt a key = true
    · simp [List.takeWhile_cons, h, ih]
    · simp [List.takeWhile_cons, h]

theorem pairLt_row (p : Nat × Nat) : pairLt p (1, 0) = decide (p.1 = 0) := by
  rw [Bool.eq_iff_iff, pairLt_iff, decide_eq_true_eq, LexLt]; omega

/-- In an ascending pattern the pairs of the constraints are those from the first one on. -/
theorem dropLower_filter {sp : List (Nat × Nat)} (hs : sp.Pairwise LexLt) : sp.drop (nlLower sp (1, 0)) = sp.filter (fun p => 1 ≤ p.1) := by
  rw [nlLower_eq]
  induction sp with
  | nil => rfl
  | cons a l ih =>
    obtain ⟨h1, h2⟩ := List.pairwise_cons.mp hs
    by_cases h : a.1 = 0
    · have hp : pairLt a (1, 0) = true := by rw [pairLt_row]; simpa using h
      rw [List.takeWhile_cons_of_pos (p := fun p => pairLt p (1, 0)) hp, List.length_cons, List.drop_succ_cons, ih h2, List.filter_cons_of_neg (by simp [h])]
    · have hp : ¬ pairLt a (1, 0) = true := by rw [pairLt_row]; simpa using h
      rw [List.takeWhile_cons_of_neg (p := fun p => pairLt p (1, 0)) hp, List.length_nil, List.drop_zero]
      refine (List.filter_eq_self.mpr (fun p hp' => ?_)).symm
      rcases List.mem_cons.mp hp' with rfl | hp'
      · simp; omega
      · have := h1 p hp'
        simp only [LexLt] at this
        simp; omega

/-- In the dense pattern the constraints start at `nx`. -/
theorem nlLower_dense {nf nx : Nat} (hnf : 0 < nf) : nlLower (denseGradient nf nx) (1, 0) = nx := by
  have hl := (C22_dense_gradient nf nx).2.2
  have hs := (C22_dense_gradient nf nx).1.2
  have hle : nlLower (denseGradient nf nx) (1, 0) ≤ nf * nx := by
    rw [nlLower_eq, ← hl]; exact (List.takeWhile_sublist _).length_le
  have hnx : nx ≤ nf * nx := Nat.le_mul_of_pos_left _ hnf
  have h1 : nx ≤ nlLower (denseGradient nf nx) (1, 0) := by
    by_contra hc
    push Not at hc
    have hg := denseGradient_get nf nx 0 (nlLower (denseGradient nf nx) (1, 0)) hnf hc
    rw [Nat.zero_mul, Nat.zero_add] at hg
    have := (nlLower_spec hs (1, 0) _ _ hg).mp (Nat.le_refl _)
    simp [LexLt] at this
  rcases Nat.lt_or_ge nx (nf * nx) with h2 | h2
  · have hx : 0 < nx := by
      rcases Nat.eq_zero_or_pos nx with h | h
      · subst h; simp at h2
      · exact h
    have hf : 1 < nf := by
      by_contra hc
      have : nf = 1 := by omega
      subst this; simp at h2
    have hg := denseGradient_get nf nx 1 0 hf hx
    rw [Nat.one_mul, Nat.add_zero] at hg
    have := (nlLower_spec hs (1, 0) _ _ hg).mpr (by simp [LexLt])
    omega
  · omega

end Verif.Props
