import Verif.Model.Maco
import Verif.Proof.Gaco
import Verif.Proof.Nspso
import Verif.Props.MultiObjective

/-!
# Helper lemmas for `Verif.Props.Maco`
-/

set_option autoImplicit false

namespace Verif.Props

open Verif Run Prob Pop Alg MO Spec

variable {K σ : Type} [Field K] [LinearOrder K]

/-! ### Outcomes with exceptions of some kind -/

/-- a result with `Q` or an exception with `X` -/
def MaSat {α : Type} (X : Exn → Prop) (Q : α → Prop) (o : Outcome α) : Prop := (∃ a, o = .ok a ∧ Q a) ∨ ∃ e, o = .throws e ∧ X e

theorem MaSat.mono {α : Type} {X : Exn → Prop} {Q R : α → Prop} {o : Outcome α} (h : MaSat X Q o) (hr : ∀ a, Q a → R a) : MaSat X R o := by
  rcases h with ⟨a, h1, h2⟩ | h
  · exact Or.inl ⟨a, h1, hr a h2⟩
  · exact Or.inr h

theorem MaSat.bind {α β : Type} {X : Exn → Prop} {Q : α → Prop} {R : β → Prop} {o : Outcome α} {f : α → Outcome β} (h : MaSat X Q o)
    (hf : ∀ a, Q a → MaSat X R (f a)) : MaSat X R (o >>= f) := by
  rcases h with ⟨a, rfl, h2⟩ | ⟨e, rfl, h2⟩
  · exact hf a h2
  · exact Or.inr ⟨e, rfl, h2⟩

theorem maSat_ok {α : Type} {X : Exn → Prop} {Q : α → Prop} {a : α} (h : Q a) : MaSat X Q (.ok a) := Or.inl ⟨a, rfl, h⟩

theorem maSat_of {α : Type} {X : Exn → Prop} {Q : α → Prop} {o : Outcome α} (h : o.Sat Q) : MaSat X Q o := Or.inl h

theorem maSat_foldlM {α β : Type} {X : Exn → Prop} {f : β → α → Outcome β} (I : List α → β → Prop) :
    ∀ (l pre : List α) (s : β), I pre s → (∀ p a q s, l = p ++ a :: q → I (pre ++ p) s → MaSat X (I (pre ++ p ++ [a])) (f s a)) →
      MaSat X (I (pre ++ l)) (l.foldlM f s) := by
  intro l
  induction l with
  | nil => intro pre s h _; exact maSat_ok (by simpa using h)
  | cons a l ih =>
    intro pre s h step
    rw [List.foldlM_cons]
    refine (step [] a l s rfl (by simpa using h)).bind fun s' hs' => ?_
    have := ih (pre ++ [a]) s' (by simpa using hs') (fun p b q s2 hl h2 => by
      have := step (a :: p) b q s2 (by rw [hl]; rfl) (by simpa using h2)
      simpa using this)
    simpa using this

theorem wp_lift_maSat {α τ : Type} {X : Exn → Prop} {Q : α → Prop} {o : Outcome α} (h : MaSat X Q o) {R : α → τ → Prop} {E : Exn → τ → Prop} {s : τ}
    (hr : ∀ a, o = .ok a → Q a → R a s) (he : ∀ e, X e → E e s) : wp (Run.lift o) R E s := by
  rcases h with ⟨a, rfl, h2⟩ | ⟨e, rfl, h2⟩
  · exact wp_lift_ok.mpr (hr a rfl h2)
  · exact wp_lift_throws.mpr (he e h2)

/-! ### Storing individuals -/

/-- the row of individual `j` -/
def maRowOf (cx cf : List (List (Fl K))) (j : Nat) : List (Fl K) := cx.getD j [] ++ cf.getD j []

/-- An archive: `ker` rows, each with a chromosome and a fitness vector. -/
def MaArch (P : AProb K) (ker : Nat) (arch : List (List (Fl K))) : Prop := arch.length = ker ∧ ∀ r ∈ arch, r.length = P.info.nx + P.info.nf

/-- the individual in a row -/
def maInd (P : AProb K) (r : List (Fl K)) : List (Fl K) × List (Fl K) := (r.take P.info.nx, r.drop P.info.nx)

omit [Field K] [LinearOrder K] in
theorem maGetD {P : AProb K} {n : Nat} {xs fs : List (List (Fl K))} (h : GaPop P n xs fs) {j : Nat} (hj : j < n) :
    Outcome.get xs j = .ok (xs.getD j []) ∧ Outcome.get fs j = .ok (fs.getD j []) ∧ (xs.getD j []).length = P.info.nx ∧
      (fs.getD j []).length = P.info.nf ∧ fs.getD j [] ∈ fs ∧ (xs.getD j [], fs.getD j []) ∈ xs.zip fs := by
  have hjx : j < xs.length := by rw [h.xl]; exact hj
  have hjf : j < fs.length := by rw [h.fl]; exact hj
  rw [List.getD_eq_getElem _ _ hjx, List.getD_eq_getElem _ _ hjf, Outcome.get_of_lt hjx, Outcome.get_of_lt hjf]
  refine ⟨rfl, rfl, h.dx _ (List.getElem_mem hjx), h.df _ (List.getElem_mem hjf), List.getElem_mem hjf, ?_⟩
  have hz : j < (xs.zip fs).length := by rw [List.length_zip]; omega
  have : (xs.zip fs)[j] = (xs[j], fs[j]) := List.getElem_zip
  rw [← this]
  exact List.getElem_mem hz

omit [Field K] [LinearOrder K] in
theorem maRowOf_length {P : AProb K} {n : Nat} {xs fs : List (List (Fl K))} (h : GaPop P n xs fs) {j : Nat} (hj : j < n) :
    (maRowOf xs fs j).length = P.info.nx + P.info.nf ∧ maInd P (maRowOf xs fs j) = (xs.getD j [], fs.getD j []) := by
  obtain ⟨_, _, h1, h2, _⟩ := maGetD h hj
  unfold maRowOf maInd
  rw [List.length_append, h1, h2, ← h1, List.take_left, List.drop_left]
  exact ⟨rfl, rfl⟩

omit [Field K] [LinearOrder K] in
theorem maWrite_ok {t : List (List (Fl K))} {i : Nat} {r : List (Fl K)} (hi : i < t.length) (hl : t[i].length = r.length) :
    maWrite t i r = .ok (t.set i r) := by
  unfold maWrite
  rw [Outcome.get_of_lt hi, Outcome.bind_ok, if_neg (by omega), Outcome.set_of_lt hi, List.drop_of_length_le (by omega), List.append_nil]

omit [Field K] [LinearOrder K] in
theorem gaSlice_all {r : List (Fl K)} {n : Nat} (h : r.length = n) : gaSlice r 0 n = .ok r := by
  rw [gaSlice_ok (by omega), List.drop_zero, ← h, List.take_length]

/-- The first rows are those of the individuals `q`. -/
structure MaPlaced (P : AProb K) (ker : Nat) (cx cf : List (List (Fl K))) (q : List Nat) (p : MaSel K) : Prop where
  i : p.i = q.length
  le : q.length ≤ ker
  al : p.arch.length = ker
  ad : ∀ r ∈ p.arch, r.length = P.info.nx + P.info.nf
  at' : p.arch.take q.length = q.map (maRowOf cx cf)
  fl : p.fit.length = ker
  fd : ∀ r ∈ p.fit, r.length = P.info.nf
  ft : p.fit.take q.length = q.map (fun j => cf.getD j [])

omit [Field K] [LinearOrder K] in
theorem take_succ_set {α : Type} {l : List α} {i : Nat} (hi : i < l.length) (a : α) : (l.set i a).take (i + 1) = l.take i ++ [a] := by
  rw [List.take_succ_eq_append_getElem (by rw [List.length_set]; exact hi), List.getElem_set_self, List.take_set_of_le (Nat.le_refl i)]

omit [Field K] [LinearOrder K] in
theorem maPlaced_snoc {P : AProb K} {n ker : Nat} {cx cf : List (List (Fl K))} (hc : GaPop P n cx cf) {q : List Nat} {p : MaSel K}
    (h : MaPlaced P ker cx cf q p) {j : Nat} (hj : j < n) (hlt : q.length < ker) :
    MaPlaced P ker cx cf (q ++ [j]) ⟨p.i + 1, p.arch.set p.i (maRowOf cx cf j), p.fit.set p.i (cf.getD j [])⟩ := by
  obtain ⟨_, _, _, h2, _⟩ := maGetD hc hj
  have h3 := (maRowOf_length hc hj).1
  obtain ⟨i1, i2, i3, i4, i5, i6, i7, i8⟩ := h
  refine ⟨by simp [i1], by simp; omega, by simp [i3], fun r hr => ?_, ?_, by simp [i6], fun r hr => ?_, ?_⟩
  · rcases List.mem_or_eq_of_mem_set hr with h | h
    · exact i4 r h
    · rw [h]; exact h3
  · dsimp only
    rw [List.length_append, List.length_singleton, List.map_append, ← i5, i1]
    exact take_succ_set (by omega) _
  · rcases List.mem_or_eq_of_mem_set hr with h | h
    · exact i7 r h
    · rw [h]; exact h2
  · dsimp only
    rw [List.length_append, List.length_singleton, List.map_append, ← i8, i1]
    exact take_succ_set (by omega) _

omit [Field K] [LinearOrder K] in
/-- the individuals of a front are stored, in the order of `sl` -/
theorem maPut_loop {P : AProb K} {n ker : Nat} {cx cf : List (List (Fl K))} (hc : GaPop P n cx cf) {idx : List Nat} (hidx : ∀ j ∈ idx, j < n)
    {sl : List Nat} (hsl : sl.Perm (List.range idx.length)) {q : List Nat} {p : MaSel K} (h : MaPlaced P ker cx cf q p) :
    ((List.range idx.length).foldlM (maPut P ker (idx.map (fun j => cx.getD j [])) (idx.map (fun j => cf.getD j [])) sl) p).Sat
      (MaPlaced P ker cx cf ((q ++ sl.map (fun i => idx.getD i 0)).take ker)) := by
  have hll : sl.length = idx.length := by rw [hsl.length_eq, List.length_range]
  have key := Outcome.range_sat (f := maPut P ker (idx.map (fun j => cx.getD j [])) (idx.map (fun j => cf.getD j [])) sl)
    (fun i => MaPlaced P ker cx cf ((q ++ (sl.take i).map (fun i => idx.getD i 0)).take ker)) idx.length p (by
      rw [List.take_zero, List.map_nil, List.append_nil, List.take_of_length_le h.le]; exact h) ?_
  · rw [← hll, List.take_length] at key
    rw [← hll]
    exact key
  · intro i p1 hi h1
    have his : i < sl.length := by omega
    have hsi : sl[i] < idx.length := List.mem_range.mp (hsl.mem_iff.mp (List.getElem_mem his))
    have hj : idx[sl[i]] < n := hidx _ (List.getElem_mem hsi)
    have hi1 := h1.i
    have hle1 := h1.le
    have hlen : ((q ++ (sl.take i).map (fun i => idx.getD i 0)).take ker).length = min ker (q.length + i) := by
      rw [List.length_take, List.length_append, List.length_map, List.length_take, Nat.min_eq_left (show i ≤ sl.length by omega)]
    unfold maPut
    by_cases hlt : p1.i < ker
    · rw [if_pos hlt, Outcome.get_of_lt his, Outcome.bind_ok, Outcome.get_of_lt (by rw [List.length_map]; exact hsi), Outcome.bind_ok,
        Outcome.get_of_lt (by rw [List.length_map]; exact hsi), Outcome.bind_ok, List.getElem_map, List.getElem_map]
      obtain ⟨_, _, g1, g2, _⟩ := maGetD hc hj
      have g3 := (maRowOf_length hc hj).1
      rw [gaSlice_all g1, Outcome.bind_ok, gaSlice_all g2, Outcome.bind_ok]
      have ha : p1.i < p1.arch.length := by rw [h1.al]; exact hlt
      have hf : p1.i < p1.fit.length := by rw [h1.fl]; exact hlt
      rw [maWrite_ok ha (by rw [h1.ad _ (List.getElem_mem ha)]; exact g3.symm), Outcome.bind_ok,
        maWrite_ok hf (by rw [h1.fd _ (List.getElem_mem hf)]; exact g2.symm), Outcome.bind_ok]
      refine ⟨_, rfl, ?_⟩
      have hs := maPlaced_snoc hc h1 hj (by omega)
      have e : (q ++ (sl.take (i + 1)).map (fun i => idx.getD i 0)).take ker =
          (q ++ (sl.take i).map (fun i => idx.getD i 0)).take ker ++ [idx[sl[i]]] := by
        rw [List.take_succ_eq_append_getElem his, List.map_append, ← List.append_assoc, List.map_singleton, List.getD_eq_getElem _ _ hsi]
        rw [List.take_of_length_le (l := q ++ (sl.take i).map _) (by
          rw [List.length_append, List.length_map, List.length_take]; omega)]
        rw [List.take_of_length_le (by
          rw [List.length_append, List.length_append, List.length_map, List.length_take, List.length_singleton]; omega)]
      rw [e]
      exact hs
    · rw [if_neg hlt]
      refine ⟨_, rfl, ?_⟩
      have e : (q ++ (sl.take (i + 1)).map (fun i => idx.getD i 0)).take ker = (q ++ (sl.take i).map (fun i => idx.getD i 0)).take ker := by
        rw [List.take_succ_eq_append_getElem his, List.map_append, ← List.append_assoc, List.take_append_of_le_length (by
          rw [List.length_append, List.length_map, List.length_take]; omega)]
      rw [e]
      exact h1

/-! ### The extreme individuals -/

omit [Field K] in
theorem maFind_ok {i : Nat} {w : Fl K} : ∀ (lf : List (List (Fl K))) (n : Nat), (∀ f ∈ lf, i < f.length) →
    (∃ f ∈ lf, ∃ a, f[i]? = some a ∧ Fl.eq a w = true) →
      ∃ k, maFind i w lf n = .ok (some (n + k)) ∧ k < lf.length ∧ ∃ a, (lf.getD k [])[i]? = some a ∧ Fl.eq a w = true
  | [], _, _, h => by obtain ⟨f, hf, _⟩ := h; cases hf
  | f :: fs, n, hd, h => by
    have hi := hd f (by simp)
    unfold maFind
    rw [Outcome.get_of_lt hi, Outcome.bind_ok]
    by_cases he : Fl.eq f[i] w = true
    · rw [if_pos he]
      exact ⟨0, rfl, by simp, f[i], by simp, he⟩
    · rw [if_neg he]
      obtain ⟨g, hg, a, ha, hw⟩ := h
      have hg' : g ∈ fs := by
        rcases List.mem_cons.mp hg with rfl | hg
        · rw [List.getElem?_eq_getElem hi, Option.some.injEq] at ha
          subst ha
          exact absurd hw he
        · exact hg
      obtain ⟨k, h1, h2, h3⟩ := maFind_ok fs (n + 1) (fun f hf => hd f (by simp [hf])) ⟨g, hg', a, ha, hw⟩
      refine ⟨k + 1, by rw [h1]; congr 2; omega, by simp; omega, ?_⟩
      simpa using h3

/-- `es` are extreme points of `lf`, one for each objective. -/
def MaExtreme (nf : Nat) (lf : List (List (Fl K))) (es : List Nat) : Prop :=
  es.length = nf ∧ ∀ (i k : Nat), es[i]? = some k → ∃ f a, lf[k]? = some f ∧ f[i]? = some a ∧ ∀ g ∈ lf, ∀ b, g[i]? = some b → a ≤ b

theorem maBorders_ok {P : AProb K} {lx lf : List (List (Fl K))} (hne : lf ≠ []) (hx : lx.length = lf.length)
    (hd : ∀ f ∈ lf, f.length = P.info.nf) (hn : ∀ f ∈ lf, Fl.nan ∉ f) :
    ∃ es, maBorders P lx lf = .ok (es.map (fun k => (lx.getD k [], lf.getD k []))) ∧ MaExtreme P.info.nf lf es := by
  obtain ⟨z, hz, hz1, hz2⟩ := (C07_ideal lf hne).2 (dims_of hd)
  have hzl : z.length = P.info.nf := by
    obtain ⟨f, hf⟩ := List.exists_mem_of_ne_nil lf hne
    rw [hz1 f hf, hd f hf]
  have key := Outcome.range_sat (f := maBorder lx lf z)
    (fun i bs => ∃ es : List Nat, bs = es.map (fun k => (lx.getD k [], lf.getD k [])) ∧ es.length = i ∧
      ∀ (j k : Nat), es[j]? = some k → ∃ f a, lf[k]? = some f ∧ f[j]? = some a ∧ ∀ g ∈ lf, ∀ b, g[j]? = some b → a ≤ b)
    P.info.nf [] ⟨[], rfl, rfl, by simp⟩ ?_
  · obtain ⟨bs, h1, es, h2, h3, h4⟩ := key
    refine ⟨es, ?_, h3, h4⟩
    unfold maBorders
    rw [hz, Outcome.bind_ok, h1, Outcome.bind_ok, h2, List.length_map, h3, Nat.sub_self, List.replicate_zero, List.append_nil]
    rfl
  · rintro i bs hi ⟨es, rfl, hl, hes⟩
    have hiz : i < z.length := by omega
    obtain ⟨⟨p, hp, hpi⟩, hmin⟩ := hz2 i z[i] (List.getElem?_eq_getElem hiz)
    have hnn : z[i] ≠ .nan := fun h => hn p hp (by
      rw [← h]; exact List.mem_of_getElem? hpi)
    have heq : ∀ a : Fl K, Fl.eq a z[i] = true → a = z[i] := by
      intro a h
      revert h hnn
      generalize z[i] = b
      cases a <;> cases b <;> simp [Fl.eq]
    have heq' : Fl.eq z[i] z[i] = true := by
      revert hnn
      generalize z[i] = b
      cases b <;> simp [Fl.eq]
    obtain ⟨k, hk1, hk2, a, hk3, hk4⟩ := maFind_ok (i := i) (w := z[i]) lf 0 (fun f hf => by rw [hd f hf]; exact hi)
      ⟨p, hp, z[i], hpi, heq'⟩
    have ha := heq a hk4
    subst ha
    unfold maBorder
    rw [Outcome.get_of_lt hiz, Outcome.bind_ok, hk1, Outcome.bind_ok]
    dsimp only
    rw [Nat.zero_add, Outcome.get_of_lt (by omega), Outcome.bind_ok, Outcome.get_of_lt hk2, Outcome.bind_ok]
    refine ⟨_, rfl, es ++ [k], ?_, by simp [hl], ?_⟩
    · rw [List.map_append, List.map_singleton, List.getD_eq_getElem _ _ (by omega), List.getD_eq_getElem _ _ hk2]
    · intro j k' hj
      by_cases hlt : j < es.length
      · rw [List.getElem?_append_left hlt] at hj
        exact hes j k' hj
      · rw [List.getElem?_append_right (by omega)] at hj
        have h0 : j - es.length = 0 := by
          by_contra hne
          rw [List.getElem?_eq_none (by simp; omega)] at hj
          cases hj
        rw [h0] at hj
        simp at hj
        subst hj
        have : j = i := by omega
        subst this
        rw [List.getD_eq_getElem _ _ hk2] at hk3
        exact ⟨lf[k], z[j], List.getElem?_eq_getElem hk2, hk3, fun g hg b hb => hmin g hg b hb⟩

/-- The individuals kept when the extreme ones `es` are put in the last places. -/
def maEdged (ker nf : Nat) (q es : List Nat) : List Nat :=
  (List.range ker).map (fun i => if ker - 1 - i < min nf ker then es.getD (ker - 1 - i) 0 else q.getD i 0)

theorem maEdge_loop {P : AProb K} {n ker : Nat} {cx cf : List (List (Fl K))} (hc : GaPop P n cx cf) {q es : List Nat} (hq : q.length = ker)
    (hqn : ∀ j ∈ q, j < n ∧ Fl.nan ∉ cf.getD j []) (hes : es.length = P.info.nf) (hen : ∀ j ∈ es, j < n ∧ Fl.nan ∉ cf.getD j []) {p : MaSel K}
    (h : MaPlaced P ker cx cf q p) :
    ((List.range (min P.info.nf ker)).foldlM (maEdge P ker (es.map (fun j => (cx.getD j [], cf.getD j [])))) p).Sat (fun p' =>
      p'.i = ker ∧ p'.arch = (maEdged ker P.info.nf q es).map (maRowOf cx cf) ∧ p'.fit.length = ker ∧ ∀ r ∈ p'.fit, r ∈ cf ∧ Fl.nan ∉ r) := by
  have key := Outcome.range_sat (f := maEdge P ker (es.map (fun j => (cx.getD j [], cf.getD j []))))
    (fun t p' => p'.i = ker ∧
      p'.arch = ((List.range ker).map (fun i => if ker - 1 - i < t then es.getD (ker - 1 - i) 0 else q.getD i 0)).map (maRowOf cx cf) ∧
      p'.fit.length = ker ∧ ∀ r ∈ p'.fit, r ∈ cf ∧ Fl.nan ∉ r) (min P.info.nf ker) p ?_ ?_
  · exact key
  · refine ⟨by rw [h.i, hq], ?_, h.fl, fun r hr => ?_⟩
    · have := h.at'
      rw [hq, ← h.al, List.take_length] at this
      rw [this]
      congr 1
      apply List.ext_getElem
      · simp [h.al, hq]
      · intro i h1 h2
        simp only [Nat.not_lt_zero, if_false, List.getElem_map, List.getElem_range]
        rw [List.getD_eq_getElem _ _ h1]
    · have := h.ft
      rw [hq, ← h.fl, List.take_length] at this
      rw [this] at hr
      obtain ⟨j, hj, rfl⟩ := List.mem_map.mp hr
      exact ⟨(maGetD hc (hqn j hj).1).2.2.2.2.1, (hqn j hj).2⟩
  · rintro t p1 ht ⟨i1, i2, i3, i4⟩
    have htn : t < es.length := by omega
    have htk : t < ker := by omega
    have hej := hen _ (List.getElem_mem htn)
    obtain ⟨_, _, g1, g2, g3, _⟩ := maGetD hc hej.1
    have g4 := (maRowOf_length hc hej.1).1
    have hal : p1.arch.length = ker := by rw [i2]; simp
    have hmem : ∀ i, ((if ker - 1 - i < t then es.getD (ker - 1 - i) 0 else q.getD i 0) < n ∧
        Fl.nan ∉ cf.getD (if ker - 1 - i < t then es.getD (ker - 1 - i) 0 else q.getD i 0) []) ∨ ¬ i < ker := by
      intro i
      by_cases hi : i < ker
      · left
        split
        · rw [List.getD_eq_getElem _ _ (by omega)]
          exact hen _ (List.getElem_mem _)
        · rw [List.getD_eq_getElem _ _ (by omega)]
          exact hqn _ (List.getElem_mem _)
      · exact Or.inr hi
    have hrow : ∀ (i : Nat) (hi : i < p1.arch.length), ∃ j, (j < n ∧ Fl.nan ∉ cf.getD j []) ∧ p1.arch[i] = maRowOf cx cf j := by
      intro i hi
      refine ⟨_, (hmem i).resolve_right (by omega), ?_⟩
      simp only [i2, List.getElem_map, List.getElem_range]
    have hw : ker - 1 - t < p1.arch.length := by omega
    obtain ⟨j1, hj1, e1⟩ := hrow _ hw
    unfold maEdge
    rw [Outcome.get_of_lt (by rw [List.length_map]; exact htn), Outcome.bind_ok, List.getElem_map]
    dsimp only
    rw [gaSlice_all g1, Outcome.bind_ok, gaSlice_all g2, Outcome.bind_ok, maWrite_ok hw (by rw [e1, (maRowOf_length hc hj1.1).1]; exact g4.symm), Outcome.bind_ok]
    have hset : p1.arch.set (ker - 1 - t) (cx.getD es[t] [] ++ cf.getD es[t] []) =
        ((List.range ker).map (fun i => if ker - 1 - i < t + 1 then es.getD (ker - 1 - i) 0 else q.getD i 0)).map (maRowOf cx cf) := by
      apply List.ext_getElem
      · simp [hal]
      · intro i h1 h2
        have hik : i < ker := by simpa [hal] using h1
        rw [List.getElem_set]
        by_cases he : ker - 1 - t = i
        · rw [if_pos he]
          subst he
          simp only [List.getElem_map, List.getElem_range]
          rw [if_pos (by omega), show ker - 1 - (ker - 1 - t) = t by omega, List.getD_eq_getElem _ _ htn]
          rfl
        · rw [if_neg he]
          simp only [i2, List.getElem_map, List.getElem_range]
          by_cases hlt : ker - 1 - i < t
          · rw [if_pos hlt, if_pos (by omega)]
          · rw [if_neg hlt, if_neg (by omega)]
    have hrow2 : ∃ j, (j < n ∧ Fl.nan ∉ cf.getD j []) ∧ ∃ h : t < (p1.arch.set (ker - 1 - t) (cx.getD es[t] [] ++ cf.getD es[t] [])).length,
        (p1.arch.set (ker - 1 - t) (cx.getD es[t] [] ++ cf.getD es[t] []))[t] = maRowOf cx cf j := by
      have hl : t < (p1.arch.set (ker - 1 - t) (cx.getD es[t] [] ++ cf.getD es[t] [])).length := by rw [List.length_set]; omega
      by_cases he : ker - 1 - t = t
      · exact ⟨es[t], hej, hl, by rw [List.getElem_set, if_pos he]; rfl⟩
      · obtain ⟨j, hj, e⟩ := hrow t (by omega)
        exact ⟨j, hj, hl, by rw [List.getElem_set, if_neg he]; exact e⟩
    obtain ⟨j2, hj2, hl2, e2⟩ := hrow2
    rw [Outcome.get_of_lt hl2, Outcome.bind_ok, e2]
    obtain ⟨_, _, k1, k2, k3, _⟩ := maGetD hc hj2.1
    have hsl : gaSlice (maRowOf cx cf j2) P.info.nx P.info.nf = .ok (cf.getD j2 []) := by
      rw [gaSlice_ok (by rw [(maRowOf_length hc hj2.1).1])]
      unfold maRowOf
      rw [← k1, List.drop_left, ← k2, List.take_length]
    rw [hsl, Outcome.bind_ok]
    have hwf : ker - 1 - t < p1.fit.length := by omega
    rw [maWrite_ok hwf (by rw [hc.df _ (i4 _ (List.getElem_mem hwf)).1]; exact k2.symm), Outcome.bind_ok]
    refine ⟨_, rfl, i1, hset, by simp [i3], fun r hr => ?_⟩
    rcases List.mem_or_eq_of_mem_set hr with h | h
    · exact i4 r h
    · rw [h]; exact ⟨k3, hj2.2⟩

/-! ### The choice of the individuals to keep -/

/-- What is used of the hypervolumes: there is one for each point, unless an exception is thrown, which happens if there is a NaN. -/
def HvSane (hv : List (List (Fl K)) → Fl K → Outcome (List (Fl K))) (nf : Nat) : Prop :=
  ∀ l off, l ≠ [] → (∀ f ∈ l, f.length = nf) →
    (∃ c, hv l off = .ok c ∧ c.length = l.length ∧ ∀ f ∈ l, Fl.nan ∉ f) ∨ ∃ e, hv l off = .throws e

/-- The exception comes from the computation of the hypervolumes of some points with `C`. -/
def MaThrew (v : MaEnv K σ) (C : List (Fl K) → Prop) (e : Exn) : Prop := ∃ l off, l ≠ [] ∧ (∀ f ∈ l, C f) ∧ v.hv l off = .throws e

/-- `u` is the front `f` ordered by exclusive hypervolume, largest first. -/
def MaOrder (v : MaEnv K σ) (off : Fl K) (cf : List (List (Fl K))) (f u : List Nat) : Prop :=
  ∃ (c : List (Fl K)) (sl : List Nat), v.hv (f.map (fun j => cf.getD j [])) off = .ok c ∧ c.length = f.length ∧
    IsSorted (maMore c) (List.range f.length) sl ∧ u = sl.map (fun i => f.getD i 0)

/-- `es` are extreme individuals of the front `f0`, one for each objective. -/
def MaEdges (nf : Nat) (cf : List (List (Fl K))) (f0 es : List Nat) : Prop :=
  es.length = nf ∧ ∀ (i j : Nat), es[i]? = some j → j ∈ f0 ∧ ∃ a, (cf.getD j [])[i]? = some a ∧
    ∀ k ∈ f0, ∀ b, (cf.getD k [])[i]? = some b → a ≤ b

theorem getD_range_map {α : Type} (f : List α) (d : α) : (List.range f.length).map (fun i => f.getD i d) = f := by
  apply List.ext_getElem
  · simp
  · intro i h1 h2
    simp only [List.getElem_map, List.getElem_range, List.getD_eq_getElem _ _ h2]

theorem MaOrder.perm {v : MaEnv K σ} {off : Fl K} {cf : List (List (Fl K))} {f u : List Nat} (h : MaOrder v off cf f u) : u.Perm f := by
  obtain ⟨c, sl, _, _, hs, rfl⟩ := h
  have := hs.perm.map (fun i => f.getD i 0)
  rwa [getD_range_map] at this

/-- the loop over the fronts -/
def MaStage (v : MaEnv K σ) (P : AProb K) (ker : Nat) (off : Fl K) (cx cf : List (List (Fl K))) (pre : List (List Nat)) (c : MaSel K × Nat) : Prop :=
  c.2 = pre.length ∧ ∃ us, List.Forall₂ (MaOrder v off cf) (pre.take us.length) us ∧ (us.length < pre.length → ker ≤ us.flatten.length) ∧
    (((∀ f0, pre.head? = some f0 → f0.length < ker) ∧ MaPlaced P ker cx cf (us.flatten.take ker) c.1) ∨
     ∃ f0, pre.head? = some f0 ∧ ker ≤ f0.length ∧ us.length = 1 ∧ ∃ es, MaEdges P.info.nf cf f0 es ∧ c.1.i = ker ∧
      c.1.arch = (maEdged ker P.info.nf (us.flatten.take ker) es).map (maRowOf cx cf) ∧ c.1.fit.length = ker ∧ ∀ r ∈ c.1.fit, r ∈ cf ∧ Fl.nan ∉ r)

theorem swo_maMore (c : List (Fl K)) (l : List Nat) : swoOn (maMore c) l = true :=
  swoOn_of_key (fun i => OrderDual.toDual (c.getD i .nan)) fun a _ b _ => by
    unfold maMore
    rw [Fl.greaterThanF_iff]
    exact Iff.rfl

theorem maFront_ok {v : MaEnv K σ} (hsrt : ValidSort v.srt) {P : AProb K} (hv : HvSane v.hv P.info.nf) {C : List (Fl K) → Prop}
    {n ker : Nat} (hker : 0 < ker) {off : Fl K} {cx cf : List (List (Fl K))} (hc : GaPop P n cx cf) (hC : ∀ f ∈ cf, C f)
    {pre : List (List Nat)} (hpre : ∀ f ∈ pre, ∀ j ∈ f, j < n) {idx : List Nat} (hidx : ∀ j ∈ idx, j < n) (hne : idx ≠ []) {c : MaSel K × Nat}
    (h : MaStage v P ker off cx cf pre c) : MaSat (MaThrew v C) (MaStage v P ker off cx cf (pre ++ [idx])) (maFront v P ker off cx cf c idx) := by
  obtain ⟨h1, us, h2, h3, h4⟩ := h
  have hul : us.length ≤ pre.length := by
    have := h2.length_eq
    rw [List.length_take] at this
    omega
  unfold maFront
  by_cases hlt : c.1.i < ker
  · rw [if_pos hlt]
    rcases h4 with ⟨h4, h5⟩ | ⟨f0, _, _, _, es, _, h5, _⟩
    swap
    · omega
    have hfl : us.flatten.length < ker := by
      have := h5.i
      rw [List.length_take] at this
      omega
    have hup : us.length = pre.length := by
      by_contra hne'
      have := h3 (by omega)
      omega
    rw [hup, List.take_length] at h2
    rw [List.take_of_length_le (by omega)] at h5
    have e1 : idx.mapM (Outcome.get cf) = .ok (idx.map (fun j => cf.getD j [])) :=
      Outcome.mapM_ok _ _ fun j hj => (maGetD hc (hidx j hj)).2.1
    have e2 : idx.mapM (Outcome.get cx) = .ok (idx.map (fun j => cx.getD j [])) :=
      Outcome.mapM_ok _ _ fun j hj => (maGetD hc (hidx j hj)).1
    rw [e1, Outcome.bind_ok, e2, Outcome.bind_ok]
    have hlne : idx.map (fun j => cf.getD j []) ≠ [] := by simpa using hne
    have hlm : ∀ f ∈ idx.map (fun j => cf.getD j []), f ∈ cf := by
      intro f hf
      obtain ⟨j, hj, rfl⟩ := List.mem_map.mp hf
      exact (maGetD hc (hidx j hj)).2.2.2.2.1
    rcases hv (idx.map (fun j => cf.getD j [])) off hlne (fun f hf => hc.df f (hlm f hf)) with ⟨con, hc1, hc2, hc3⟩ | ⟨e, he⟩
    swap
    · rw [he]
      exact Or.inr ⟨e, rfl, _, off, hlne, fun f hf => hC f (hlm f hf), he⟩
    rw [hc1, Outcome.bind_ok]
    rw [List.length_map] at hc2
    obtain ⟨sl, hsl1, hsl2⟩ := stdSort_sat (lt := maMore con) hsrt (swo_maMore con (List.range con.length))
    rw [hsl1, Outcome.bind_ok]
    rw [hc2] at hsl2 ⊢
    obtain ⟨p, hp1, hp2⟩ := maPut_loop hc hidx hsl2.perm h5
    rw [hp1, Outcome.bind_ok]
    have hord : MaOrder v off cf idx (sl.map (fun i => idx.getD i 0)) := ⟨con, sl, hc1, hc2, hsl2, rfl⟩
    generalize sl.map (fun i => idx.getD i 0) = u at hp2 hord
    have hfo : List.Forall₂ (MaOrder v off cf) ((pre ++ [idx]).take (us ++ [u]).length) (us ++ [u]) := by
      rw [List.length_append, List.length_singleton, hup, show pre.length + 1 = (pre ++ [idx]).length by simp, List.take_length]
      exact List.rel_append h2 (List.Forall₂.cons hord List.Forall₂.nil)
    have hflat : (us ++ [u]).flatten = us.flatten ++ u := by simp
    rw [← hflat] at hp2
    have hle : (us ++ [u]).length < (pre ++ [idx]).length → ker ≤ (us ++ [u]).flatten.length := by
      intro h; simp at h; omega
    by_cases hfull : p.i ≥ ker ∧ c.2 = 0
    · rw [if_pos hfull]
      have hpe : pre = [] := List.eq_nil_of_length_eq_zero (by rw [← h1]; exact hfull.2)
      subst hpe
      have hue : us = [] := List.eq_nil_of_length_eq_zero (by simpa using hup)
      subst hue
      have hul : ker ≤ u.length := by
        have := hp2.i
        rw [List.length_take] at this
        have h6 := hfull.1
        simp at this
        omega
      have huq : (([] ++ [u]).flatten.take ker).length = ker := by simp; omega
      obtain ⟨es, he1, he2, he3⟩ := maBorders_ok (P := P) (lx := idx.map (fun j => cx.getD j [])) hlne (by simp) (fun f hf => hc.df f (hlm f hf)) hc3
      have hebs : es.map (fun k => ((idx.map (fun j => cx.getD j [])).getD k [], (idx.map (fun j => cf.getD j [])).getD k [])) =
          (es.map (fun k => idx.getD k 0)).map (fun j => (cx.getD j [], cf.getD j [])) := by
        rw [List.map_map]
        apply List.map_congr_left
        intro k hk
        obtain ⟨i, hi⟩ := List.getElem?_of_mem hk
        obtain ⟨f, a, hf, _⟩ := he3 i k hi
        have hkl : k < idx.length := by
          have := (List.getElem?_eq_some_iff.mp hf).1
          simpa using this
        simp [Function.comp, List.getD_eq_getElem?_getD, hkl]
      have hedge : MaEdges P.info.nf cf idx (es.map (fun k => idx.getD k 0)) := by
        refine ⟨by simpa using he2, fun i j hj => ?_⟩
        rw [List.getElem?_map] at hj
        obtain ⟨k, hk, rfl⟩ := Option.map_eq_some_iff.mp hj
        obtain ⟨f, a, hf, ha, hmin⟩ := he3 i k hk
        have hkl : k < idx.length := by
          have := (List.getElem?_eq_some_iff.mp hf).1
          simpa using this
        rw [List.getD_eq_getElem _ _ hkl]
        rw [List.getElem?_map, List.getElem?_eq_getElem hkl, Option.map_some, Option.some.injEq] at hf
        subst hf
        exact ⟨List.getElem_mem hkl, a, ha, fun k' hk' b hb => hmin _ (List.mem_map.mpr ⟨k', hk', rfl⟩) b hb⟩
      rw [he1, Outcome.bind_ok, hebs]
      have hgood : ∀ j ∈ idx, j < n ∧ Fl.nan ∉ cf.getD j [] := fun j hj => ⟨hidx j hj, hc3 _ (List.mem_map_of_mem hj)⟩
      obtain ⟨p', hp3, hp4⟩ := maEdge_loop hc huq (fun j hj => hgood j (by
        have := List.mem_of_mem_take hj
        simp at this
        exact (hord.perm.mem_iff.mp this))) hedge.1 (fun j hj => by
          obtain ⟨i, hi⟩ := List.getElem?_of_mem hj
          exact hgood j (hedge.2 i j hi).1) hp2
      rw [hp3, Outcome.bind_ok]
      refine maSat_ok ⟨by simp [h1], [] ++ [u], hfo, hle, Or.inr ⟨idx, rfl, ?_, by simp, _, hedge, hp4⟩⟩
      rw [← hord.perm.length_eq]
      exact hul
    · rw [if_neg hfull]
      refine maSat_ok ⟨by simp [h1], us ++ [u], hfo, hle, Or.inl ⟨?_, hp2⟩⟩
      intro f0 hf0
      cases pre with
      | nil =>
        simp at hf0
        subst hf0
        have hue : us = [] := List.eq_nil_of_length_eq_zero (by simpa using hup)
        subst hue
        have h6 : p.i < ker := by
          by_contra h
          exact hfull ⟨by omega, by simpa using h1⟩
        have := hp2.i
        rw [List.length_take] at this
        simp at this
        rw [← hord.perm.length_eq]
        omega
      | cons g pre => exact h4 f0 (by simpa using hf0)
  · rw [if_neg hlt]
    have hle : ker ≤ us.flatten.length := by
      rcases h4 with ⟨_, h5⟩ | ⟨f0, hf0, hk, hu1, _⟩
      · have := h5.i
        rw [List.length_take] at this
        omega
      · obtain ⟨u, rfl⟩ := List.length_eq_one_iff.mp hu1
        cases pre with
        | nil => cases hf0
        | cons g pre =>
          simp at hf0
          subst hf0
          simp at h2
          simp
          rw [h2.perm.length_eq]
          exact hk
    refine maSat_ok ⟨by simp [h1], us, ?_, fun _ => hle, ?_⟩
    · rw [List.take_append_of_le_length hul]; exact h2
    · cases pre with
      | nil =>
        exfalso
        have : us = [] := List.eq_nil_of_length_eq_zero (by simpa using hul)
        subst this
        simp at hle
        omega
      | cons g pre =>
        rcases h4 with ⟨h4, h5⟩ | h4
        · exact Or.inl ⟨fun f0 hf0 => h4 f0 (by simpa using hf0), h5⟩
        · exact Or.inr (by simpa using h4)

/-- `q` are the individuals to keep among those with fitness `cf`: with `t` the fronts, `us` the first of them ordered by exclusive hypervolume.
If the first front alone fills the archive, extreme individuals are put in the last places. -/
def MaChosen (v : MaEnv K σ) (ker nf : Nat) (off : Fl K) (cf : List (List (Fl K))) (q : List Nat) : Prop :=
  ∃ (f0 : List Nat) (t us : List (List Nat)), IsLayering cf (f0 :: t) ∧ List.Forall₂ (MaOrder v off cf) ((f0 :: t).take us.length) us ∧
    ker ≤ us.flatten.length ∧
    (f0.length < ker ∧ q = us.flatten.take ker ∨
     ker ≤ f0.length ∧ us.length = 1 ∧ ∃ es, MaEdges nf cf f0 es ∧ q = maEdged ker nf (us.flatten.take ker) es)

/-- The result of the choice: the rows of the archive, and the fitness vectors used for its ideal point. -/
structure MaSelOf (v : MaEnv K σ) (P : AProb K) (ker : Nat) (off : Fl K) (cx cf : List (List (Fl K))) (c : MaSel K) (q : List Nat) : Prop where
  chosen : MaChosen v ker P.info.nf off cf q
  arch : c.arch = q.map (maRowOf cx cf)
  fl : c.fit.length = ker
  fm : ∀ r ∈ c.fit, r ∈ cf ∧ Fl.nan ∉ r

theorem maChosen_lt {v : MaEnv K σ} {ker nf : Nat} {off : Fl K} {cf : List (List (Fl K))} {q : List Nat}
    (h : MaChosen v ker nf off cf q) : q.length = ker ∧ ∀ j ∈ q, j < cf.length := by
  obtain ⟨f0, t, us, hL, hus, hle, h⟩ := h
  have hm : ∀ u ∈ us, ∀ j ∈ u, j < cf.length := by
    intro u hu j hj
    obtain ⟨i, hi, rfl⟩ := List.getElem_of_mem hu
    have hi' : i < ((f0 :: t).take us.length).length := by rw [hus.length_eq]; exact hi
    have ho := hus.get (i := i) hi' hi
    rw [List.get_eq_getElem, List.get_eq_getElem] at ho
    have hjf := ho.perm.mem_iff.mp hj
    have : j ∈ (f0 :: t).flatten := List.mem_flatten.mpr ⟨_, List.mem_of_mem_take (List.getElem_mem hi'), hjf⟩
    exact List.mem_range.mp (hL.partition.mem_iff.mp this)
  have hmf : ∀ j ∈ us.flatten, j < cf.length := by
    intro j hj
    obtain ⟨u, hu, hju⟩ := List.mem_flatten.mp hj
    exact hm u hu j hju
  rcases h with ⟨_, rfl⟩ | ⟨_, _, es, hes, rfl⟩
  · exact ⟨by rw [List.length_take]; omega, fun j hj => hmf j (List.mem_of_mem_take hj)⟩
  · refine ⟨by simp [maEdged], fun j hj => ?_⟩
    obtain ⟨i, hi, rfl⟩ := List.mem_map.mp hj
    have hik := List.mem_range.mp hi
    split
    · rename_i hlt
      have hl : ker - 1 - i < es.length := by rw [hes.1]; omega
      rw [List.getD_eq_getElem _ _ hl]
      have := (hes.2 _ _ (List.getElem?_eq_getElem hl)).1
      have : es[ker - 1 - i] ∈ (f0 :: t).flatten := List.mem_flatten.mpr ⟨f0, by simp, this⟩
      exact List.mem_range.mp (hL.partition.mem_iff.mp this)
    · have hl : i < (us.flatten.take ker).length := by rw [List.length_take]; omega
      rw [List.getD_eq_getElem _ _ hl]
      exact hmf _ (List.mem_of_mem_take (List.getElem_mem hl))

theorem maOrder_nan {v : MaEnv K σ} {nf : Nat} (hv : HvSane v.hv nf) {off : Fl K} {cf : List (List (Fl K))} (hd : ∀ f ∈ cf, f.length = nf) {t : List (List Nat)}
    (hL : IsLayering cf t) {f u : List Nat} (hf : f ∈ t) (hu : MaOrder v off cf f u) : ∀ j ∈ f, Fl.nan ∉ cf.getD j [] := by
  intro j hj
  obtain ⟨c, sl, h1, -⟩ := hu
  rcases hv (f.map (fun j => cf.getD j [])) off (by intro e; rw [List.map_eq_nil_iff] at e; rw [e] at hj; simp at hj) (by
    intro g hgm
    obtain ⟨k, hk, rfl⟩ := List.mem_map.mp hgm
    have : k ∈ t.flatten := List.mem_flatten.mpr ⟨f, hf, hk⟩
    have := List.mem_range.mp (hL.partition.mem_iff.mp this)
    rw [List.getD_eq_getElem _ _ this]
    exact hd _ (List.getElem_mem _)) with ⟨_, _, _, h⟩ | ⟨e, h⟩
  · exact h _ (List.mem_map_of_mem hj)
  · rw [h] at h1
    cases h1

theorem maOrders_nan {v : MaEnv K σ} {nf : Nat} (hv : HvSane v.hv nf) {off : Fl K} {cf : List (List (Fl K))} (hd : ∀ f ∈ cf, f.length = nf)
    {t us : List (List Nat)} (hL : IsLayering cf t) (hus : List.Forall₂ (MaOrder v off cf) (t.take us.length) us) : ∀ j ∈ us.flatten, Fl.nan ∉ cf.getD j [] := by
  intro j hj
  obtain ⟨u, hu, hju⟩ := List.mem_flatten.mp hj
  obtain ⟨i, hi, rfl⟩ := List.getElem_of_mem hu
  have hi' : i < (t.take us.length).length := by rw [hus.length_eq]; exact hi
  have ho := hus.get (i := i) hi' hi
  rw [List.get_eq_getElem, List.get_eq_getElem] at ho
  exact maOrder_nan hv hd hL (List.mem_of_mem_take (List.getElem_mem hi')) ho j (ho.perm.mem_iff.mp hju)

theorem flatten_length_of {α : Type} {l m : List (List α)} (h : List.Forall₂ (fun (f u : List α) => u.length = f.length) l m) :
    m.flatten.length = l.flatten.length := by
  induction h with
  | nil => rfl
  | cons h _ ih => simp [h, ih]

theorem maSelect_ok {v : MaEnv K σ} (hsrt : ValidSort v.srt) {P : AProb K} (hv : HvSane v.hv P.info.nf) {C : List (Fl K) → Prop}
    {n ker : Nat} (hker : 2 ≤ ker) (hkn : ker ≤ n) {off : Fl K} {cx cf arch : List (List (Fl K))} (hc : GaPop P n cx cf) (hC : ∀ f ∈ cf, C f)
    (ha : MaArch P ker arch) : MaSat (MaThrew v C) (fun c => ∃ q, MaSelOf v P ker off cx cf c q) (maSelect v P ker off cx cf arch) := by
  obtain ⟨t, ht, hL, -, -, -, -⟩ := C02_fnds_layers cf (by rw [hc.fl]; omega) (dims_of hc.df)
  unfold maSelect
  rw [ht, Outcome.bind_ok]
  have hmem : ∀ f ∈ t.fronts, ∀ j ∈ f, j < n := by
    intro f hf j hj
    have : j ∈ t.fronts.flatten := List.mem_flatten.mpr ⟨f, hf, hj⟩
    rw [← hc.fl]
    exact List.mem_range.mp (hL.partition.mem_iff.mp this)
  have key := maSat_foldlM (X := MaThrew v C) (f := maFront v P ker off cx cf) (fun pre c => MaStage v P ker off cx cf pre c) t.fronts []
    (⟨0, arch, List.replicate ker (List.replicate P.info.nf (.fin 1))⟩, 0) ?_ ?_
  · refine key.bind fun c hstage => ?_
    rw [List.nil_append] at hstage
    obtain ⟨h1, us, h2, h3, h4⟩ := hstage
    have hfl : t.fronts.flatten.length = n := by rw [hL.partition.length_eq, List.length_range, hc.fl]
    have hle : ker ≤ us.flatten.length := by
      by_cases hu : us.length < t.fronts.length
      · exact h3 hu
      · have hle' := h2.length_eq
        rw [List.length_take] at hle'
        rw [List.take_of_length_le (by omega)] at h2
        have : us.flatten.length = t.fronts.flatten.length := by
          exact flatten_length_of (h2.imp fun _ _ h => h.perm.length_eq)
        omega
    cases hfr : t.fronts with
    | nil => rw [hfr] at hfl; simp at hfl; omega
    | cons f0 rest =>
      rw [hfr] at h2 h4 hL
      rcases h4 with ⟨h4, h5⟩ | ⟨g0, h4, hk, hu, es, he, hi, har, hf1, hf2⟩
      · refine maSat_ok ⟨us.flatten.take ker, ⟨f0, rest, us, hL, h2, hle, Or.inl ⟨h4 f0 rfl, rfl⟩⟩, ?_, h5.fl, fun r hr => ?_⟩
        · have := h5.at'
          rw [List.length_take, Nat.min_eq_left hle, ← h5.al, List.take_length] at this
          rw [h5.al] at this
          exact this
        · have := h5.ft
          rw [List.length_take, Nat.min_eq_left hle] at this
          rw [List.take_of_length_le (by rw [h5.fl])] at this
          rw [this] at hr
          obtain ⟨j, hj, rfl⟩ := List.mem_map.mp hr
          have hch : MaChosen v ker P.info.nf off cf (us.flatten.take ker) := ⟨f0, rest, us, hL, h2, hle, Or.inl ⟨h4 f0 rfl, rfl⟩⟩
          have := (maChosen_lt hch).2 j hj
          rw [hc.fl] at this
          exact ⟨(maGetD hc this).2.2.2.2.1, maOrders_nan hv hc.df hL h2 j (List.mem_of_mem_take hj)⟩
      · rw [List.head?_cons, Option.some.injEq] at h4
        subst h4
        exact maSat_ok ⟨_, ⟨f0, rest, us, hL, h2, hle, Or.inr ⟨hk, hu, es, he, rfl⟩⟩, har, hf1, hf2⟩
  · refine ⟨rfl, [], by simp, by simp, Or.inl ⟨by simp, ?_⟩⟩
    refine ⟨by simp, by simp, ha.1, ha.2, by simp, by simp, ?_, by simp⟩
    intro r hr
    rw [List.eq_of_mem_replicate hr, List.length_replicate]
  · intro p a q s hl hs
    rw [List.nil_append] at hs ⊢
    exact maFront_ok hsrt hv (by omega) hc hC (fun f hf => hmem f (by rw [hl]; simp [hf])) (hmem a (by rw [hl]; simp)) (hL.nonempty a (by rw [hl]; simp)) hs

/-! ### What a generation does with the archive -/

/-- The archive holds the individuals chosen among the candidates. -/
def MaKept (v : MaEnv K σ) (P : AProb K) (ker : Nat) (off : Fl K) (cx cf arch : List (List (Fl K))) : Prop :=
  ∃ q, MaChosen v ker P.info.nf off cf q ∧ arch = q.map (maRowOf cx cf)

theorem maKept_arch {v : MaEnv K σ} {P : AProb K} {n ker : Nat} {off : Fl K} {cx cf arch : List (List (Fl K))} (hc : GaPop P n cx cf)
    (h : MaKept v P ker off cx cf arch) : MaArch P ker arch ∧ (∀ r ∈ arch, maInd P r ∈ cx.zip cf) ∧ ∀ r ∈ arch, (maInd P r).2 ∈ cf := by
  obtain ⟨q, hq, rfl⟩ := h
  obtain ⟨h1, h2⟩ := maChosen_lt hq
  rw [hc.fl] at h2
  refine ⟨⟨by rw [List.length_map, h1], fun r hr => ?_⟩, fun r hr => ?_, fun r hr => ?_⟩ <;>
    obtain ⟨j, hj, rfl⟩ := List.mem_map.mp hr
  · exact (maRowOf_length hc (h2 j hj)).1
  · rw [(maRowOf_length hc (h2 j hj)).2]
    exact (maGetD hc (h2 j hj)).2.2.2.2.2
  · rw [(maRowOf_length hc (h2 j hj)).2]
    exact (maGetD hc (h2 j hj)).2.2.2.2.1

/-- the archive at the beginning of a generation -/
def maStart (A : Maco K) (m : MaMem K) (arch : List (List (Fl K))) : List (List (Fl K)) := if A.memory = true ∧ m.counter > 1 then m.arch else arch

/-- the individuals of the population in use -/
def maXs (A : Maco K) (m : MaMem K) (xs : List (List (Fl K))) : List (List (Fl K)) := if A.memory then m.popX else xs

/-- their fitness vectors -/
def maFs (A : Maco K) (m : MaMem K) (fs : List (List (Fl K))) : List (List (Fl K)) := if A.memory then m.popF else fs

/-- What the first part of a generation does. -/
inductive MaTopOf (v : MaEnv K σ) (P : AProb K) (A : Maco K) (gen : Nat) (m : MaMem K) (arch xs fs : List (List (Fl K))) : MaTop K → Prop
  | fresh (hf : maFresh A m gen = true) (arch' fit : List (List (Fl K))) (hk : MaKept v P A.ker (.fin (1 / 10)) xs fs arch')
      (hl : fit.length = A.ker) (hm : ∀ r ∈ fit, r ∈ fs ∧ Fl.nan ∉ r) : MaTopOf v P A gen m arch xs fs ⟨arch', fit, []⟩
  | later (hf : maFresh A m gen = false) :
      MaTopOf v P A gen m arch xs fs ⟨arch, arch.map (fun r => (maInd P r).2), arch.map (maInd P) ++ xs.zip fs⟩

omit [Field K] [LinearOrder K] in
theorem maCand_pop {P : AProb K} {n ker : Nat} {arch xs fs : List (List (Fl K))} (ha : MaArch P ker arch) (hp : GaPop P n xs fs) :
    GaPop P (ker + n) ((arch.map (maInd P) ++ xs.zip fs).map Prod.fst) ((arch.map (maInd P) ++ xs.zip fs).map Prod.snd) := by
  have e1 : (xs.zip fs).map Prod.fst = xs := List.map_fst_zip (by rw [hp.xl, hp.fl])
  have e2 : (xs.zip fs).map Prod.snd = fs := List.map_snd_zip (by rw [hp.xl, hp.fl])
  rw [List.map_append, List.map_append, e1, e2]
  refine ⟨by simp [ha.1, hp.xl], by simp [ha.1, hp.fl], fun x hx => ?_, fun f hf => ?_⟩
  · rcases List.mem_append.mp hx with h | h
    · rw [List.map_map] at h
      obtain ⟨r, hr, rfl⟩ := List.mem_map.mp h
      have := ha.2 r hr
      simp only [Function.comp, maInd, List.length_take]
      omega
    · exact hp.dx x h
  · rcases List.mem_append.mp hf with h | h
    · rw [List.map_map] at h
      obtain ⟨r, hr, rfl⟩ := List.mem_map.mp h
      have := ha.2 r hr
      simp only [Function.comp, maInd, List.length_drop]
      omega
    · exact hp.df f h

theorem maTop_ok {v : MaEnv K σ} (hsrt : ValidSort v.srt) {P : AProb K} (hv : HvSane v.hv P.info.nf) {C : List (Fl K) → Prop} {A : Maco K}
    {n gen : Nat} (hker : 2 ≤ A.ker) (hkn : A.ker ≤ n) {m : MaMem K} {arch xs fs : List (List (Fl K))} (hp : GaPop P n xs fs) (hC : ∀ f ∈ fs, C f)
    (ha : MaArch P A.ker arch) : MaSat (MaThrew v C) (MaTopOf v P A gen m arch xs fs) (maTop v P A n gen m arch xs fs) := by
  unfold maTop
  by_cases hf : maFresh A m gen = true
  · rw [if_pos hf]
    refine (maSelect_ok hsrt hv hker hkn hp hC ha).bind fun c hc => ?_
    obtain ⟨q, hq⟩ := hc
    exact maSat_ok (MaTopOf.fresh hf _ _ ⟨q, hq.chosen, hq.arch⟩ hq.fl hq.fm)
  · rw [if_neg hf]
    have e1 : (List.range A.ker).mapM (maOld P arch) = .ok ((List.range A.ker).map (fun j => maInd P (arch.getD j []))) := by
      refine Outcome.mapM_ok _ _ fun j hj => ?_
      have hj' : j < arch.length := by rw [ha.1]; exact List.mem_range.mp hj
      have hr := ha.2 _ (List.getElem_mem hj')
      unfold maOld
      rw [Outcome.get_of_lt hj', Outcome.bind_ok, gaSlice_ok (by omega), Outcome.bind_ok, gaSlice_ok (by omega), Outcome.bind_ok, List.getD_eq_getElem _ _ hj']
      unfold maInd
      rw [List.drop_zero, List.take_of_length_le (l := arch[j].drop P.info.nx) (by rw [List.length_drop]; omega)]
      rfl
    have e2 : (List.range n).mapM (maNew P xs fs) = .ok ((List.range n).map (fun j => (xs.getD j [], fs.getD j []))) := by
      refine Outcome.mapM_ok _ _ fun j hj => ?_
      obtain ⟨g1, g2, g3, g4, _⟩ := maGetD hp (List.mem_range.mp hj)
      unfold maNew
      rw [g2, Outcome.bind_ok, gaSlice_all g4, Outcome.bind_ok, g1, Outcome.bind_ok, gaSlice_all g3, Outcome.bind_ok]
      rfl
    rw [e1, Outcome.bind_ok, e2, Outcome.bind_ok]
    have e3 : (List.range A.ker).map (fun j => maInd P (arch.getD j [])) = arch.map (maInd P) := by
      apply List.ext_getElem
      · simp [ha.1]
      · intro i h1 h2
        have hi : i < arch.length := by simpa using h2
        simp only [List.getElem_map, List.getElem_range, List.getD_eq_getElem _ _ hi]
    have e4 : (List.range n).map (fun j => (xs.getD j [], fs.getD j [])) = xs.zip fs := by
      apply List.ext_getElem
      · simp [hp.xl, hp.fl]
      · intro i h1 h2
        rw [List.length_zip] at h2
        simp only [List.getElem_map, List.getElem_range, List.getElem_zip, List.getD_eq_getElem _ _ (show i < xs.length by omega),
          List.getD_eq_getElem _ _ (show i < fs.length by omega)]
    rw [e3, e4]
    refine maSat_ok ?_
    have := MaTopOf.later (v := v) (P := P) (A := A) (gen := gen) (m := m) (arch := arch) (xs := xs) (fs := fs) (by simpa using hf)
    rw [List.map_map]
    exact this

/-- `z` is the ideal point of `l`. -/
def MaIdeal (nf : Nat) (l : List (List (Fl K))) (z : List (Fl K)) : Prop :=
  z.length = nf ∧ ∀ (i : Nat) (m : Fl K), z[i]? = some m → (∃ p ∈ l, p[i]? = some m) ∧ ∀ p ∈ l, ∀ x, p[i]? = some x → m ≤ x

/-- the points differ somewhere, for the operator `!=` -/
def MaDiffers (z w : List (Fl K)) : Prop := ∃ (i : Nat) (a b : Fl K), z[i]? = some a ∧ w[i]? = some b ∧ Fl.eq a b = false

theorem maIdeal_ok {nf : Nat} {l : List (List (Fl K))} (hne : l ≠ []) (hd : ∀ f ∈ l, f.length = nf) : ∃ z, MO.ideal l = .ok z ∧ MaIdeal nf l z := by
  obtain ⟨z, hz, hz1, hz2⟩ := (C07_ideal l hne).2 (dims_of hd)
  obtain ⟨f, hf⟩ := List.exists_mem_of_ne_nil l hne
  exact ⟨z, hz, by rw [hz1 f hf, hd f hf], hz2⟩

omit [Field K] in
theorem maDiffer_ok {nf : Nat} {z w : List (Fl K)} (hz : z.length = nf) (hw : w.length = nf) :
    ∃ c, (List.range nf).foldlM (maDiffer z w) false = .ok c ∧ (c = true ↔ MaDiffers z w) := by
  have key := Outcome.range_sat (f := maDiffer z w) (fun i c => c = true ↔ ∃ (j : Nat) (a b : Fl K), j < i ∧ z[j]? = some a ∧ w[j]? = some b ∧ Fl.eq a b = false)
    nf false (by simp) ?_
  · obtain ⟨c, h1, h2⟩ := key
    refine ⟨c, h1, h2.trans ⟨?_, ?_⟩⟩
    · rintro ⟨j, a, b, _, h⟩
      exact ⟨j, a, b, h⟩
    · rintro ⟨j, a, b, h⟩
      exact ⟨j, a, b, by rw [← hz]; exact (List.getElem?_eq_some_iff.mp h.1).1, h⟩
  · intro i c hi hc
    have hiz : i < z.length := by omega
    have hiw : i < w.length := by omega
    unfold maDiffer
    by_cases h : c = true
    · rw [if_pos h]
      refine ⟨true, rfl, ?_⟩
      obtain ⟨j, a, b, h1, h2⟩ := hc.mp h
      exact ⟨fun _ => ⟨j, a, b, by omega, h2⟩, fun _ => rfl⟩
    · rw [if_neg h, Outcome.get_of_lt hiz, Outcome.bind_ok, Outcome.get_of_lt hiw, Outcome.bind_ok]
      refine ⟨_, rfl, ?_⟩
      dsimp only
      rw [Bool.not_eq_true']
      constructor
      · intro he
        exact ⟨i, z[i], w[i], by omega, List.getElem?_eq_getElem hiz, List.getElem?_eq_getElem hiw, he⟩
      · rintro ⟨j, a, b, h1, h2, h3, h4⟩
        by_cases hj : j = i
        · subst hj
          rw [List.getElem?_eq_getElem hiz, Option.some.injEq] at h2
          rw [List.getElem?_eq_getElem hiw, Option.some.injEq] at h3
          rw [h2, h3]
          exact h4
        · exact absurd (hc.mpr ⟨j, a, b, by omega, h2, h3, h4⟩) h

/-- The ideal point of the archive, and whether that of all candidates differs from it. -/
def MaIdealOf (P : AProb K) (A : Maco K) (gen : Nat) (m : MaMem K) (u : MaTop K) (z : List (Fl K)) (check : Bool) : Prop :=
  MaIdeal P.info.nf u.fit z ∧ ∃ w, (if maFresh A m gen = true then w = z else MaIdeal P.info.nf (u.cand.map Prod.snd) w) ∧ (check = true ↔ MaDiffers z w)

theorem maIdeals_ok {v : MaEnv K σ} {P : AProb K} {A : Maco K} {n gen : Nat} (hker : 2 ≤ A.ker) {m m' : MaMem K} (hm : maFresh A m' gen = maFresh A m gen)
    {arch xs fs : List (List (Fl K))} (hp : GaPop P n xs fs) (ha : MaArch P A.ker arch) {u : MaTop K} (hu : MaTopOf v P A gen m arch xs fs u) :
    ∃ z check, maIdeals P A gen m' u = .ok (z, check) ∧ MaIdealOf P A gen m u z check := by
  unfold maIdeals
  rw [hm]
  cases hu with
  | fresh hf arch' fit hk hl hmm =>
    have hne : fit ≠ [] := by rintro rfl; simp at hl; omega
    obtain ⟨z, hz, hzi⟩ := maIdeal_ok hne (fun f hf => hp.df f (hmm f hf).1)
    dsimp only
    rw [hz, Outcome.bind_ok, if_pos hf]
    obtain ⟨c, hc1, hc2⟩ := maDiffer_ok hzi.1 hzi.1
    refine ⟨z, c, ?_, hzi, z, by rw [if_pos hf], hc2⟩
    show Bind.bind (Outcome.ok z) _ = _
    rw [Outcome.bind_ok, hc1]
    rfl
  | later hf =>
    have hpop := maCand_pop ha hp
    have hne : arch.map (fun r => (maInd P r).2) ≠ [] := by
      intro h
      have := ha.1
      simp at h
      rw [h] at this
      simp at this
      omega
    obtain ⟨z, hz, hzi⟩ := maIdeal_ok (nf := P.info.nf) hne (fun f hf => by
      obtain ⟨r, hr, rfl⟩ := List.mem_map.mp hf
      have := ha.2 r hr
      simp only [maInd, List.length_drop]
      omega)
    have hne2 : (arch.map (maInd P) ++ xs.zip fs).map Prod.snd ≠ [] := by
      intro h
      rw [List.map_append, List.append_eq_nil_iff] at h
      apply hne
      rw [← h.1, List.map_map]
      rfl
    obtain ⟨w, hw, hwi⟩ := maIdeal_ok hne2 hpop.df
    dsimp only
    rw [hz, Outcome.bind_ok, if_neg (by rw [hf]; simp), hw, Outcome.bind_ok]
    obtain ⟨c, hc1, hc2⟩ := maDiffer_ok hzi.1 hwi.1
    rw [hc1]
    exact ⟨z, c, rfl, hzi, w, by rw [if_neg (by rw [hf]; simp)]; exact hwi, hc2⟩

/-- The archive after its update. -/
def MaUpdated (v : MaEnv K σ) (P : AProb K) (A : Maco K) (gen : Nat) (m : MaMem K) (u : MaTop K) (arch : List (List (Fl K))) : Prop :=
  if maFresh A m gen = true then arch = u.arch
  else MaKept v P A.ker (.fin (1 / 100)) (u.cand.map Prod.fst) (u.cand.map Prod.snd) arch

/-- the candidates of a generation -/
def maCands (P : AProb K) (A : Maco K) (gen : Nat) (m : MaMem K) (arch xs fs : List (List (Fl K))) : List (List (Fl K) × List (Fl K)) :=
  if maFresh A m gen = true then xs.zip fs else arch.map (maInd P) ++ xs.zip fs

omit [Field K] [LinearOrder K] in
theorem ma_zip_unzip (l : List (List (Fl K) × List (Fl K))) : (l.map Prod.fst).zip (l.map Prod.snd) = l := by
  induction l with
  | nil => rfl
  | cons a t ih => simp [ih]

theorem maUpdate_ok {v : MaEnv K σ} (hsrt : ValidSort v.srt) {P : AProb K} (hv : HvSane v.hv P.info.nf) {C : List (Fl K) → Prop} {A : Maco K}
    {n gen : Nat} (hker : 2 ≤ A.ker) {m m' : MaMem K} (hm : maLater A m' gen = !maFresh A m gen) {arch xs fs : List (List (Fl K))}
    (hp : GaPop P n xs fs) (hC : ∀ f ∈ fs, C f) (ha : MaArch P A.ker arch) (hCa : maFresh A m gen = false → ∀ r ∈ arch, C (maInd P r).2) {u : MaTop K}
    (hu : MaTopOf v P A gen m arch xs fs u) :
    MaSat (MaThrew v C) (fun arch' => MaUpdated v P A gen m u arch' ∧ MaArch P A.ker arch' ∧
      (∀ r ∈ arch', maInd P r ∈ maCands P A gen m arch xs fs) ∧ ∀ r ∈ arch', C (maInd P r).2) (maUpdate v P A gen m' u) := by
  unfold maUpdate MaUpdated maCands
  rw [hm]
  cases hu with
  | fresh hf arch' fit hk hl hmm =>
    rw [hf]
    obtain ⟨h1, h2, h3⟩ := maKept_arch hp hk
    exact maSat_ok ⟨rfl, h1, h2, fun r hr => hC _ (h3 r hr)⟩
  | later hf =>
    rw [hf]
    simp only [Bool.not_false, if_true, Bool.false_eq_true, if_false]
    have hpop := maCand_pop ha hp
    have hC' : ∀ f ∈ (arch.map (maInd P) ++ xs.zip fs).map Prod.snd, C f := by
      intro f hf'
      rw [List.map_append] at hf'
      rcases List.mem_append.mp hf' with h | h
      · rw [List.map_map] at h
        obtain ⟨r, hr, rfl⟩ := List.mem_map.mp h
        exact hCa hf r hr
      · rw [List.map_snd_zip (by rw [hp.xl, hp.fl])] at h
        exact hC f h
    refine (maSelect_ok hsrt hv hker (by omega) hpop hC' ha).bind fun c hc => ?_
    obtain ⟨q, hq⟩ := hc
    have hk : MaKept v P A.ker (.fin (1 / 100)) ((arch.map (maInd P) ++ xs.zip fs).map Prod.fst) ((arch.map (maInd P) ++ xs.zip fs).map Prod.snd) c.arch :=
      ⟨q, hq.chosen, hq.arch⟩
    obtain ⟨h1, h2, h3⟩ := maKept_arch hpop hk
    refine maSat_ok ⟨hk, h1, fun r hr => ?_, fun r hr => hC' _ (h3 r hr)⟩
    have := h2 r hr
    rwa [ma_zip_unzip] at this

/-! ### A generation -/

/-- What a run works with: the number of generations so far, the members, the archive, the weights, the individuals, the evaluations, the ideal
points logged. -/
structure MaState (K : Type) where
  g : Nat
  m : MaMem K
  arch : List (List (Fl K))
  cum : List (Fl K)
  xs : List (List (Fl K))
  fs : List (List (Fl K))
  evs : List (ECall K)
  log : List (List (Fl K))

/-- the members once the archive was filled -/
def maM1 (A : Maco K) (gen : Nat) (m : MaMem K) (arch : List (List (Fl K))) : MaMem K := if maFresh A m gen then maKeep A m arch else m

/-- the members once the archive was updated -/
def maM3 (A : Maco K) (gen : Nat) (m : MaMem K) (arch : List (List (Fl K))) : MaMem K := if maLater A m gen then maKeep A m arch else m

/-- the members at the end of a generation -/
def maM4 (A : Maco K) (m : MaMem K) (xs fs : List (List (Fl K))) : MaMem K := if A.memory then { m with popX := xs, popF := fs } else m

/-- What the first part of a generation is made of: `u` is what it computes, `z` the ideal point of the archive, `check` tells if it is not that of
all candidates, `m2` are the members. -/
structure MaHead (v : MaEnv K σ) (P : AProb K) (A : Maco K) (a : MaState K) (u : MaTop K) (z : List (Fl K)) (check : Bool) (m2 : MaMem K) : Prop where
  top : MaTopOf v P A (a.g + 1) a.m (maStart A a.m a.arch) (maXs A a.m a.xs) (maFs A a.m a.fs) u
  ideals : MaIdealOf P A (a.g + 1) a.m u z check
  mem : m2 = maCounters A (maM1 A (a.g + 1) a.m u.arch) check

/-- The criterion holds. -/
def MaStop (A : Maco K) (m : MaMem K) : Prop := A.evalstop ≠ 0 ∧ m.nEval ≥ A.evalstop

/-- What a generation is made of; `sig` are the standard deviations. -/
structure MaWith (v : MaEnv K σ) (P : AProb K) (A : Maco K) (a b : MaState K) (u : MaTop K) (z : List (Fl K)) (check : Bool) (m2 : MaMem K)
    (sig : List (Fl K)) : Prop where
  head : MaHead v P A a u z check m2
  go : ¬ MaStop A m2
  arch : MaUpdated v P A (a.g + 1) a.m u b.arch
  from_ : ∀ r ∈ b.arch, maInd P r ∈ maCands P A (a.g + 1) a.m (maStart A a.m a.arch) (maXs A a.m a.xs) (maFs A a.m a.fs)
  sigma : maSigma v P A (a.g + 1) (maPhero v A (a.g + 1) (maM3 A (a.g + 1) m2 b.arch) a.cum).1 b.arch = .ok sig
  ants : ∀ x ∈ b.xs, GaAntOf v.toGaEnv P (maGa A) (maPhero v A (a.g + 1) (maM3 A (a.g + 1) m2 b.arch) a.cum).2 sig (maGr b.arch) x
  ev : b.evs = a.evs ++ asCalls (b.xs.zip b.fs)
  mem : b.m = maM4 A (maPhero v A (a.g + 1) (maM3 A (a.g + 1) m2 b.arch) a.cum).1 b.xs b.fs
  cum : b.cum = (maPhero v A (a.g + 1) (maM3 A (a.g + 1) m2 b.arch) a.cum).2
  log : b.log = a.log ++ [z]
  g : b.g = a.g + 1

/-- A generation. -/
structure MaFull (v : MaEnv K σ) (P : AProb K) (A : Maco K) (n : Nat) (a b : MaState K) : Prop where
  popA : GaPop P n (maXs A a.m a.xs) (maFs A a.m a.fs)
  popB : GaPop P n b.xs b.fs
  archA : MaArch P A.ker (maStart A a.m a.arch)
  archB : MaArch P A.ker b.arch
  made : ∃ u z check m2 sig, MaWith v P A a b u z check m2 sig

/-- state of the run -/
def maSt (b : MaVars K) (k : Nat) (s : St K σ) : MaState K := ⟨k, b.m, b.arch, b.cum, s.pop.x, s.pop.f, s.evs, b.log⟩

/-- the first generations of a run, `k` of them -/
structure MaMid (v : MaEnv K σ) (P : AProb K) (A : Maco K) (C : List (Fl K) → Prop) (b0 : MaVars K) (s0 : St K σ) (k : Nat) (b : MaVars K)
    (s : St K σ) : Prop where
  tr : ∃ new, TrackedBy (GaBox P) P s0 new s ∧ new.length = k * s0.pop.id.length
  good : ∀ f ∈ s.pop.f, C f
  mem : A.memory = true → GaPop P s0.pop.id.length b.m.popX b.m.popF ∧ (∀ f ∈ b.m.popF, C f) ∧ 1 ≤ b.m.counter
  kept : A.memory = true → 0 < k → b.m.popX = s.pop.x ∧ b.m.popF = s.pop.f ∧ b.m.arch = b.arch
  arch : MaArch P A.ker (maStart A b.m b.arch)
  archC : A.memory = true ∧ b.m.counter > 1 ∨ 0 < k → ∀ r ∈ maStart A b.m b.arch, C (maInd P r).2
  real : 0 < k → MaArch P A.ker b.arch
  cum : b.cum.length = A.ker
  stop : b.stop = false
  run : Steps (MaFull v P A s0.pop.id.length) k (maSt b0 0 s0) (maSt b k s)

/-- a run that stopped early in generation `k` -/
def MaEarly (v : MaEnv K σ) (P : AProb K) (A : Maco K) (C : List (Fl K) → Prop) (b0 : MaVars K) (s0 : St K σ) (k : Nat) (b : MaVars K) (s : St K σ) : Prop :=
  ∃ b1 u z check m2, MaMid v P A C b0 s0 (k - 1) b1 s ∧ MaHead v P A (maSt b1 (k - 1) s) u z check m2 ∧ MaStop A m2 ∧
    b = { b1 with m := m2, arch := u.arch, stop := true }

/-- How a run may fail: the problem or the batch throws, or the hypervolume does. -/
def MaFailed (v : MaEnv K σ) (P : AProb K) (C : List (Fl K) → Prop) (bfe : Option (Batch K)) (s0 : St K σ) (e : Exn) (s : St K σ) : Prop :=
  CmFailed (GaBox P) P bfe s0 e s ∨ EvsBy (GaBox P) s0 s ∧ MaThrew v C e

omit [Field K] [LinearOrder K] in
theorem maFresh_congr {A : Maco K} {m m' : MaMem K} (h : m'.counter = m.counter) (gen : Nat) : maFresh A m' gen = maFresh A m gen := by
  unfold maFresh
  rw [h]

omit [Field K] [LinearOrder K] in
theorem maM1_counter (A : Maco K) (gen : Nat) (m : MaMem K) (arch : List (List (Fl K))) :
    (maM1 A gen m arch).counter = m.counter ∧ (maM1 A gen m arch).popX = m.popX ∧ (maM1 A gen m arch).popF = m.popF ∧ (maM1 A gen m arch).q = m.q := by
  unfold maM1 maKeep
  split
  · split <;> exact ⟨rfl, rfl, rfl, rfl⟩
  · exact ⟨rfl, rfl, rfl, rfl⟩

omit [Field K] [LinearOrder K] in
theorem maM3_counter (A : Maco K) (gen : Nat) (m : MaMem K) (arch : List (List (Fl K))) :
    (maM3 A gen m arch).counter = m.counter ∧ (maM3 A gen m arch).popX = m.popX ∧ (maM3 A gen m arch).popF = m.popF := by
  unfold maM3 maKeep
  split
  · split <;> exact ⟨rfl, rfl, rfl⟩
  · exact ⟨rfl, rfl, rfl⟩

omit [Field K] [LinearOrder K] in
theorem maLater_eq {A : Maco K} {m m' : MaMem K} {gen : Nat} (hg : 1 ≤ gen) (hc : A.memory = true → 1 ≤ m.counter) (h : m'.counter = m.counter) :
    maLater A m' gen = !maFresh A m gen := by
  unfold maLater maFresh
  rw [h]
  cases hm : A.memory
  · simp
    by_cases hg1 : gen = 1
    · subst hg1; simp
    · simp [hg1]; omega
  · have := hc hm
    simp
    by_cases hg1 : m.counter = 1
    · simp [hg1]
    · simp [hg1]; omega

omit [LinearOrder K] in
theorem maGr_arch {P : AProb K} {ker : Nat} {arch : List (List (Fl K))} (h : MaArch P ker arch) : GaArch P ker (maGr arch) := by
  refine ⟨by simp [maGr, h.1], fun r hr => ?_⟩
  obtain ⟨r', hr', rfl⟩ := List.mem_map.mp hr
  rw [List.length_cons, h.2 r' hr']
  omega

theorem maPhero_mem (v : MaEnv K σ) (A : Maco K) (gen : Nat) (m : MaMem K) (cum : List (Fl K)) :
    ∃ q, (maPhero v A gen m cum).1 = { m with q := q } := ⟨_, rfl⟩

section
variable [IsStrictOrderedRing K]

theorem wp_maGen {v : MaEnv K σ} {rep : K → Prop} (hg : v.g.Lawful rep) (hsrt : ValidSort v.srt) (hrd : RoundOk v.rd) {P : AProb K}
    (hv : HvSane v.hv P.info.nf) (hP : SaneBounds P.lb P.ub P.nix) (hnx : P.info.nx = P.lb.length) (hnobj : 0 < P.info.nobj) {A : Maco K} (hker : 2 ≤ A.ker)
    {C : List (Fl K) → Prop} (hC : ∀ h x f, f.length = P.info.nf → P.fit h x = .ok f → C f) {bfe : Option (Batch K)}
    (hok : ∀ b, bfe = some b → BatchOk P b) {s0 : St K σ} (hk : A.ker ≤ s0.pop.id.length) {b0 b : MaVars K} {k : Nat} {s : St K σ}
    (h : MaMid v P A C b0 s0 k b s) :
    wp (maGen v P A bfe s0.pop.id.length (k + 1) b) (fun r s' => (r.2 = false → MaMid v P A C b0 s0 (k + 1) r.1 s') ∧
      (r.2 = true → MaEarly v P A C b0 s0 (k + 1) r.1 s')) (MaFailed v P C bfe s0) s := by
  have hnx0 : 0 < P.info.nx := by rw [hnx]; exact List.length_pos_iff.mpr hP.nonempty
  have hmid := h
  obtain ⟨⟨new, ht, hl⟩, hgood, hmem, hkept, ha, haC, hreal, hcum, hstop, hrun⟩ := h
  have hpop0 := gaPop_of ht.inv ht.id
  have hpop : GaPop P s0.pop.id.length (maXs A b.m s.pop.x) (maFs A b.m s.pop.f) := by
    unfold maXs maFs
    split
    · rename_i hm; exact (hmem hm).1
    · exact hpop0
  have hpC : ∀ f ∈ maFs A b.m s.pop.f, C f := by
    unfold maFs
    split
    · rename_i hm; exact (hmem hm).2.1
    · exact hgood
  have hcnt : A.memory = true → 1 ≤ b.m.counter := fun h => (hmem h).2.2
  have haC' : maFresh A b.m (k + 1) = false → ∀ r ∈ maStart A b.m b.arch, C (maInd P r).2 := by
    intro hf
    apply haC
    by_cases hm : A.memory = true
    · left
      refine ⟨hm, ?_⟩
      have := hcnt hm
      unfold maFresh at hf
      rw [hm] at hf
      simp at hf
      omega
    · right
      unfold maFresh at hf
      rw [Bool.not_eq_true] at hm
      rw [hm] at hf
      simp at hf
      omega
  have thr : ∀ e s', EvsBy (GaBox P) s0 s' → MaThrew v C e → MaFailed v P C bfe s0 e s' := fun e s' h1 h2 => Or.inr ⟨h1, h2⟩
  have hev := evsBy_of_tracked ht
  unfold maGen
  rw [wp_bind, wp_get]
  dsimp only
  rw [wp_bind]
  refine wp_lift_maSat (maTop_ok (v := v) hsrt hv (gen := k + 1) (m := b.m) hker hk hpop hpC ha) (fun u _ hu => ?_) (fun e he => thr _ _ hev he)
  have e1 : (if maFresh A b.m (k + 1) = true then maKeep A b.m u.arch else b.m) = maM1 A (k + 1) b.m u.arch := rfl
  rw [e1]
  obtain ⟨z, check, hz1, hz2⟩ := maIdeals_ok hker (maFresh_congr (maM1_counter A (k + 1) b.m u.arch).1 (k + 1)) hpop ha hu
  rw [wp_bind, hz1, wp_lift_ok]
  dsimp only
  generalize hm2 : maCounters A (maM1 A (k + 1) b.m u.arch) check = m2
  have hm2c : m2.counter = b.m.counter := by rw [← hm2]; exact (maM1_counter A (k + 1) b.m u.arch).1
  have hhead : MaHead v P A (maSt b k s) u z check m2 := ⟨hu, hz2, hm2.symm⟩
  by_cases hs : A.evalstop ≠ 0 ∧ m2.nEval ≥ A.evalstop
  · rw [if_pos hs]
    exact ⟨(fun h => by cases h), fun _ => ⟨b, u, z, check, m2, hmid, hhead, hs, rfl⟩⟩
  · rw [if_neg hs, wp_bind]
    refine wp_lift_maSat (maUpdate_ok (v := v) hsrt hv hker (maLater_eq (by omega) hcnt hm2c) hpop hpC ha haC' hu) (fun arch2 _ har => ?_) (fun e he => thr _ _ hev he)
    obtain ⟨hup, ha2, hfrom, hC2⟩ := har
    have e3 : (if maLater A m2 (k + 1) = true then maKeep A m2 arch2 else m2) = maM3 A (k + 1) m2 arch2 := rfl
    rw [e3]
    generalize hph : maPhero v A (k + 1) (maM3 A (k + 1) m2 arch2) b.cum = ph
    have hphl : ph.2.length = A.ker := by rw [← hph]; exact gaPhero_length (A := maGa A) hcum
    have hga := maGr_arch ha2
    obtain ⟨sig, hsig1, hsig2, _⟩ := gaSigma_ok (v := v.toGaEnv) (A := maGa A) hP hnx hker hga (k + 1) (maGm ph.1)
    rw [wp_bind]
    rw [show maSigma v P A (k + 1) ph.1 arch2 = .ok sig from hsig1, wp_lift_ok, wp_bind, wp_onRng]
    refine wp_gaAnts (A := maGa A) hg hP hnx hker hphl hsig2 hga ?_ _
    intro ants e hal hants
    have hbox : ∀ x ∈ ants, GaBox P x := fun x hx => gaBox_of hrd hP hnx (hants x hx)
    rw [wp_bind]
    refine (wp_gaEval (B := GaBox P) hnx0 hnobj hok (tracked_rng ht e) hal (fun x hx => (hbox x hx).1) hbox).mono ?_ (fun _ _ h => Or.inl h)
    rintro _ s1 ⟨hx1, _, ht1⟩
    rw [wp_bind, wp_get]
    have hpop1 := gaPop_of ht1.inv ht1.id
    have hlz : (s1.pop.x.zip s1.pop.f).length = s0.pop.id.length := by
      rw [List.length_zip, hpop1.xl, hpop1.fl, Nat.min_self]
    have hgood1 : ∀ f ∈ s1.pop.f, C f := by
      intro f hf
      obtain ⟨j, hj, rfl⟩ := List.getElem_of_mem hf
      have hjx : j < s1.pop.x.length := by rw [hpop1.xl, ← hpop1.fl]; exact hj
      have hmz : (s1.pop.x[j], s1.pop.f[j]) ∈ s1.pop.x.zip s1.pop.f := by
        rw [← List.getElem_zip (h := by rw [List.length_zip]; omega)]
        exact List.getElem_mem _
      obtain ⟨h, hh⟩ := ht1.user (s1.pop.x[j], .ok s1.pop.f[j]) (List.mem_append_right _ (List.mem_map.mpr ⟨_, hmz, rfl⟩))
      exact hC h _ _ (hpop1.df _ hf) hh.symm
    have em : (if A.memory = true then { ph.1 with popX := s1.pop.x, popF := s1.pop.f } else ph.1) = maM4 A ph.1 s1.pop.x s1.pop.f := rfl
    rw [em]
    have hm4 : (maM4 A ph.1 s1.pop.x s1.pop.f).counter = b.m.counter := by
      obtain ⟨q, hq⟩ := maPhero_mem v A (k + 1) (maM3 A (k + 1) m2 arch2) b.cum
      have : ph.1.counter = b.m.counter := by
        rw [← hph, hq]
        dsimp only
        rw [(maM3_counter A (k + 1) m2 arch2).1, hm2c]
      unfold maM4
      split <;> exact this
    have hm4p : A.memory = true → (maM4 A ph.1 s1.pop.x s1.pop.f).popX = s1.pop.x ∧ (maM4 A ph.1 s1.pop.x s1.pop.f).popF = s1.pop.f := by
      intro hm
      unfold maM4
      rw [if_pos hm]
      exact ⟨rfl, rfl⟩
    have hm4a : A.memory = true → (maM4 A ph.1 s1.pop.x s1.pop.f).arch = arch2 := by
      intro hm
      obtain ⟨q, hq⟩ := maPhero_mem v A (k + 1) (maM3 A (k + 1) m2 arch2) b.cum
      unfold maM4
      rw [if_pos hm, ← hph, hq]
      dsimp only
      unfold maM3
      by_cases hf : maFresh A b.m (k + 1) = true
      · have hla := maLater_eq (gen := k + 1) (by omega) hcnt hm2c
        rw [hf] at hla
        unfold MaUpdated at hup
        rw [if_pos hf] at hup
        rw [if_neg (by rw [hla]; simp), ← hm2]
        unfold maM1 maKeep
        rw [if_pos hf, if_pos hm]
        exact hup.symm
      · have hla := maLater_eq (gen := k + 1) (by omega) hcnt hm2c
        rw [Bool.not_eq_true] at hf
        rw [hf] at hla
        rw [if_pos (by rw [hla]; rfl)]
        unfold maKeep
        rw [if_pos hm]
    have hst : maStart A (maM4 A ph.1 s1.pop.x s1.pop.f) arch2 = arch2 := by
      unfold maStart
      split
      · rename_i h; exact hm4a h.1
      · rfl
    refine ⟨fun _ => ⟨⟨_, ht1, ?_⟩, hgood1, ?_, ?_, ?_, ?_, fun _ => ha2, hphl, rfl, Steps.snoc hrun ⟨hpop, hpop1, ha, ha2, u, z, check, m2, sig, ?_⟩⟩,
      (fun h => by cases h)⟩
    · simp only [List.length_append, hl, asCalls, List.length_map, hlz]
      ring
    · intro hm
      dsimp only
      rw [(hm4p hm).1, (hm4p hm).2, hm4]
      exact ⟨hpop1, hgood1, hcnt hm⟩
    · intro hm _
      exact ⟨(hm4p hm).1, (hm4p hm).2, hm4a hm⟩
    · dsimp only
      rw [hst]
      exact ha2
    · intro _
      dsimp only
      rw [hst]
      exact hC2
    · dsimp only [maSt]
      refine ⟨hhead, hs, hup, hfrom, ?_, ?_, ?_, ?_, ?_, rfl, rfl⟩
      · dsimp only; rw [hph]; exact hsig1
      · dsimp only; rw [hph, hx1]; exact hants
      · dsimp only
        rw [ht1.evs, ← List.append_assoc, ← ht.evs]
      · dsimp only; rw [hph]
      · dsimp only; rw [hph]

/-- The members are as they were left by the constructor or by a run with the same parameters, a problem of the same size and a population of `n`
individuals: with memory and after the first run there are an archive and a population. -/
def MaMemOk (P : AProb K) (A : Maco K) (C : List (Fl K) → Prop) (n : Nat) (m : MaMem K) : Prop :=
  A.memory = true → m.counter + 1 < 2 ^ 32 ∧ (1 ≤ m.counter → MaArch P A.ker m.arch ∧ (∀ r ∈ m.arch, C (maInd P r).2) ∧
    GaPop P n m.popX m.popF ∧ ∀ f ∈ m.popF, C f)

/-- The population at the end of a full run, from the one of the last generation. -/
structure MaEnd (P : AProb K) (A : Maco K) (arch : List (List (Fl K))) (s s' : St K σ) : Prop where
  x : s'.pop.x = arch.map (fun r => (maInd P r).1) ++ s.pop.x.drop A.ker
  f : s'.pop.f = arch.map (fun r => (maInd P r).2) ++ s.pop.f.drop A.ker
  evs : s'.evs = s.evs

/-- A run: the members and the ideal points logged. -/
def MaRan (v : MaEnv K σ) (P : AProb K) (A : Maco K) (C : List (Fl K) → Prop) (m : MaMem K) (s : St K σ) (r : MaMem K × List (List (Fl K)))
    (s' : St K σ) : Prop :=
  (∃ new, TrackedBy (GaBox P) P s new s') ∧ ∃ b : MaVars K, r = (b.m, b.log) ∧
    ((∃ s1, MaMid v P A C (maInit P A m s.pop) s A.gens b s1 ∧ MaEnd P A b.arch s1 s') ∨
      ∃ k ≤ A.gens, 0 < k ∧ MaEarly v P A C (maInit P A m s.pop) s k b s')

omit [LinearOrder K] [IsStrictOrderedRing K] in
theorem maCount_counter {P : AProb K} {A : Maco K} {C : List (Fl K) → Prop} {n : Nat} {m : MaMem K} (hm : MaMemOk P A C n m) (p : Pop.State K) :
    (maCount A m p).arch = m.arch ∧ (A.memory = true → (maCount A m p).counter = m.counter + 1 ∧
      (m.counter = 0 → (maCount A m p).popX = p.x ∧ (maCount A m p).popF = p.f) ∧ (1 ≤ m.counter → (maCount A m p).popX = m.popX ∧ (maCount A m p).popF = m.popF)) := by
  refine ⟨?_, fun hmm => ?_⟩
  · unfold maCount
    dsimp only
    split
    · split <;> rfl
    · rfl
  · have hc : incU m.counter = m.counter + 1 := Nat.mod_eq_of_lt (hm hmm).1
    unfold maCount
    rw [if_pos hmm]
    dsimp only
    rw [hc]
    split
    · exact ⟨rfl, fun _ => ⟨rfl, rfl⟩, fun h => by omega⟩
    · exact ⟨rfl, fun h => by omega, fun _ => ⟨rfl, rfl⟩⟩

theorem ma_run {v : MaEnv K σ} {rep : K → Prop} (hg : v.g.Lawful rep) (hsrt : ValidSort v.srt) (hrd : RoundOk v.rd) {P : AProb K}
    (hv : HvSane v.hv P.info.nf) (hP : SaneBounds P.lb P.ub P.nix) (hnx : P.info.nx = P.lb.length) (hst : P.info.stochastic = false) (hnobj : 1 < P.info.nobj)
    (hnc : P.info.nc = 0) {A : Maco K} (hker : 2 ≤ A.ker)
    {C : List (Fl K) → Prop} (hC : ∀ h x f, f.length = P.info.nf → P.fit h x = .ok f → C f)
    (hgens : A.gens + 1 < 2 ^ 32) (hgens0 : A.gens ≠ 0) {bfe : Option (Batch K)} (hok : ∀ b, bfe = some b → BatchOk P b)
    {s : St K σ} (hi : Inv P.info s.pop) (hs : ∀ f ∈ s.pop.f, C f) (hk : A.ker ≤ s.pop.id.length) {m : MaMem K} (hm : MaMemOk P A C s.pop.id.length m)
    {fuel : Nat} (hfuel : A.gens < fuel) :
    wp (maEvolve v P A bfe fuel m) (fun r s' => MaRan v P A C m s r s') (MaFailed v P C bfe s) s := by
  have hnx0 : 0 < P.info.nx := by rw [hnx]; exact List.length_pos_iff.mpr hP.nonempty
  have hnf : ¬ P.info.nf < 2 := by unfold Info.nf; omega
  unfold maEvolve
  rw [wp_bind, wp_get]
  dsimp only
  rw [if_neg (by omega), hst, if_neg (by simp), if_neg hgens0, if_neg (by omega), if_neg (by omega), if_neg hnf, wp_bind]
  refine (wp_genLoop_stop hgens (MaMid v P A C (maInit P A m s.pop) s) (MaEarly v P A C (maInit P A m s.pop) s) ?_ fuel 0 (maInit P A m s.pop) s (by omega)
    (by omega) ?_).mono ?_ (fun _ _ h => h)
  · intro k b s1 _ h
    exact wp_maGen hg hsrt hrd hv hP hnx (by omega) hker hC hok hk h
  · obtain ⟨hca, hcm⟩ := maCount_counter hm s.pop
    have hpop0 := gaPop_of hi rfl
    refine ⟨⟨[], tracked_refl hi, by simp⟩, hs, ?_, fun _ h => absurd h (by omega), ?_, ?_, fun h => absurd h (by omega), by simp [maInit], rfl, .refl _⟩
    · intro hmm
      obtain ⟨h1, h2, h3⟩ := hcm hmm
      dsimp only [maInit]
      by_cases h0 : m.counter = 0
      · rw [(h2 h0).1, (h2 h0).2, h1]
        exact ⟨hpop0, hs, by omega⟩
      · obtain ⟨_, _, g1, g2⟩ := (hm hmm).2 (by omega)
        rw [(h3 (by omega)).1, (h3 (by omega)).2, h1]
        exact ⟨g1, g2, by omega⟩
    · by_cases hc : A.memory = true ∧ (maInit P A m s.pop).m.counter > 1
      · rw [show maStart A (maInit P A m s.pop).m (maInit P A m s.pop).arch = _ from if_pos hc]
        dsimp only [maInit] at hc ⊢
        rw [hca]
        have := (hcm hc.1).1
        exact ((hm hc.1).2 (by omega)).1
      · rw [show maStart A (maInit P A m s.pop).m (maInit P A m s.pop).arch = _ from if_neg hc]
        dsimp only [maInit]
        refine ⟨by simp, fun r hr => ?_⟩
        rw [List.eq_of_mem_replicate hr, List.length_replicate]
    · rintro (hc | h)
      · unfold maStart
        rw [if_pos hc]
        dsimp only [maInit] at hc ⊢
        rw [hca]
        have := (hcm hc.1).1
        exact ((hm hc.1).2 (by omega)).2.1
      · exact absurd h (by omega)
  · rintro b s1 (h | ⟨k, hk1, hk2, h⟩)
    · obtain ⟨new, ht, hl⟩ := h.tr
      have ha := h.real (by omega)
      have hxl : s1.pop.x.length = s.pop.id.length := by rw [ht.inv.wf.xs, ht.id]
      have hfl : s1.pop.f.length = s.pop.id.length := by rw [ht.inv.wf.fs, ht.id]
      rw [if_pos h.stop, wp_bind]
      refine (wp_range (fun i (_ : Unit) (s' : St K σ) => TrackedBy (GaBox P) P s new s' ∧
        s'.pop.x = (b.arch.take i).map (fun r => (maInd P r).1) ++ s1.pop.x.drop i ∧
        s'.pop.f = (b.arch.take i).map (fun r => (maInd P r).2) ++ s1.pop.f.drop i) A.ker () s1 ⟨ht, by simp, by simp⟩ ?_).mono ?_ (fun _ _ h => h)
      · rintro i _ s2 hi' ⟨ht2, hx2, hf2⟩
        have hib : i < b.arch.length := by rw [ha.1]; exact hi'
        have hr := ha.2 _ (List.getElem_mem hib)
        unfold maFinal
        rw [wp_bind, wp_lift_get hib, wp_bind, gaSlice_ok (by omega), wp_lift_ok, wp_bind, gaSlice_ok (by omega), wp_lift_ok]
        refine wp_setXF_tracked hnx0 (by omega) ht2 (by rw [ht2.id]; omega) (gaSlice_length (by omega)) (gaSlice_length (by omega)) ?_
          (fun _ _ h => Or.inl (cmFailed_of h))
        intro s3 ht3 _ hx3 hf3 _
        have put : ∀ (g : List (Fl K) → List (Fl K)) (l : List (List (Fl K))), i < l.length →
            ((b.arch.take i).map g ++ l.drop i).set i (g b.arch[i]) = (b.arch.take (i + 1)).map g ++ l.drop (i + 1) := by
          intro g l hil
          have hlen : ((b.arch.take i).map g).length = i := by simp; omega
          rw [List.set_append_right _ _ (by omega), hlen, Nat.sub_self, List.drop_eq_getElem_cons hil, List.set_cons_zero, List.take_succ_eq_append_getElem hib,
            List.map_append, List.append_assoc]
          rfl
        refine ⟨ht3, ?_, ?_⟩
        · rw [hx3, hx2]
          exact put (fun r => (maInd P r).1) _ (by omega)
        · rw [hf3, hf2]
          have e : ((b.arch[i]).drop P.info.nx).take P.info.nf = (maInd P b.arch[i]).2 :=
            List.take_of_length_le (by rw [List.length_drop]; omega)
          rw [e]
          exact put (fun r => (maInd P r).2) _ (by omega)
      · rintro _ s2 ⟨ht2, hx2, hf2⟩
        have hta : b.arch.take A.ker = b.arch := by rw [← ha.1, List.take_length]
        rw [hta] at hx2 hf2
        exact ⟨⟨new, ht2⟩, b, rfl, Or.inl ⟨s1, h, hx2, hf2, by rw [ht2.evs, ht.evs]⟩⟩
    · have he := h
      obtain ⟨b1, u, z, check, m2, h1, _, _, rfl⟩ := h
      obtain ⟨new, ht, _⟩ := h1.tr
      rw [if_neg (by simp), wp_pure]
      exact ⟨⟨new, ht⟩, _, rfl, Or.inr ⟨k, hk1, hk2, he⟩⟩

end

end Verif.Props
