import Verif.Model.MetaProblem
import Verif.Props.Problem
import Verif.Base.Check

/-!
# C23: the translate meta-problem
-/

set_option autoImplicit false

namespace Verif.Props

open Verif Prob Meta

section anyop
variable {K : Type}

/-- The decision vector number `i` of a batch. -/
def dvChunk (nx : Nat) (xs : List (Fl K)) (i : Nat) : List (Fl K) := (xs.drop (i * nx)).take nx

/-- The inner problem's `batch_fitness()` is the concatenation of its fitnesses. -/
def BatchAgrees (p : Inner K) : Prop := ∀ ys : List (Fl K), ys.length % p.prob.nx = 0 →
  ofUser (p.ubatch ys) = ((List.range (ys.length / p.prob.nx)).mapM fun i => p.fitness (dvChunk p.prob.nx ys i)) >>=
    fun l => .ok l.flatten

/-- **C23.** The constructor accepts exactly the shift vectors with the dimension of the problem. -/
theorem C23_ctor (p : Inner K) (t : List (Fl K)) :
    (translateCtor p t = .ok () ↔ t.length = p.prob.nx) ∧
    (translateCtor p t = .throws .invalidArgument ↔ t.length ≠ p.prob.nx) := by
  unfold translateCtor
  by_cases h : t.length = p.prob.nx <;> simp [h]

/-- **C23.** The fitness is the inner fitness at the point shifted back, for any arithmetic, exceptions included. -/
theorem C23_fitness (op : Fl.Ops K) (p : Inner K) {t x : List (Fl K)} (ht : t.length = p.prob.nx)
    (hx : x.length = p.prob.nx) :
    ∃ y, translateFitness op p t x = p.fitness y ∧ y.length = p.prob.nx ∧
      ∀ (i : Nat) (a b : Fl K), x[i]? = some a → t[i]? = some b → y[i]? = some (op.sub a b) := by
  refine ⟨List.zipWith op.sub x t, ?_, by simp [ht, hx], fun i a b ha hb => ?_⟩
  · unfold translateFitness translateBack transform
    rw [if_neg (by omega)]; rfl
  · rw [List.getElem?_zipWith, ha, hb]

theorem writeBlock_spec (vs : List (Fl K)) (ret : List (Fl K)) (pos : Nat) (h : pos + vs.length ≤ ret.length) :
    ∃ ret', writeBlock ret pos vs = .ok ret' ∧ ret'.length = ret.length ∧
      ∀ j : Nat, ret'[j]? = if pos ≤ j ∧ j < pos + vs.length then vs[j - pos]? else ret[j]? := by
  induction vs generalizing ret pos with
  | nil =>
    refine ⟨ret, rfl, rfl, fun j => ?_⟩
    rw [if_neg (by simp)]
  | cons v vs ih =>
    simp only [List.length_cons] at h
    obtain ⟨ret', h1, h2, h3⟩ := ih (ret.set pos v) (pos + 1) (by simp; omega)
    refine ⟨ret', ?_, by simpa using h2, fun j => ?_⟩
    · simp only [writeBlock]
      rw [Outcome.set_of_lt (by omega)]
      exact h1
    · rw [h3 j]
      simp only [List.length_cons]
      by_cases hj : j = pos
      · subst hj
        rw [if_neg (by omega), if_pos (by omega), List.getElem?_set_self (by omega)]
        simp
      · rw [List.getElem?_set_ne (by omega)]
        by_cases h4 : pos + 1 ≤ j ∧ j < pos + 1 + vs.length
        · rw [if_pos h4, if_pos (by omega)]
          have : j - pos = (j - (pos + 1)) + 1 := by omega
          rw [this, List.getElem?_cons_succ]
        · rw [if_neg h4, if_neg (by omega)]

theorem bfe_slice_ok {xs : List (Fl K)} {nx i n : Nat} (hlen : xs.length = n * nx) (hi : i < n) :
    Bfe.slice xs (i * nx) nx = .ok (dvChunk nx xs i) ∧ (dvChunk nx xs i).length = nx := by
  have : i * nx + nx ≤ n * nx := by
    have := Nat.mul_le_mul_right nx hi
    rwa [Nat.succ_mul] at this
  unfold Bfe.slice dvChunk
  rw [if_pos (by omega)]
  exact ⟨rfl, by simp; omega⟩

theorem dvChunk_get {xs : List (Fl K)} {nx i k : Nat} (hk : k < nx) : (dvChunk nx xs i)[k]? = xs[i * nx + k]? := by
  unfold dvChunk
  rw [List.getElem?_take_of_lt hk, List.getElem?_drop]

theorem deshift_ok (op : Fl.Ops K) {nx n : Nat} {t xs : List (Fl K)} {order : List Nat}
    (ht : t.length = nx) (hlen : xs.length = n * nx) (ho : order.Perm (List.range n)) :
    ∃ ys, deshift op nx t xs order = .ok ys ∧ ys.length = xs.length ∧
      ∀ i < n, dvChunk nx ys i = List.zipWith op.sub (dvChunk nx xs i) t := by
  have key := Outcome.foldlM_sat (f := fun ret i => do
      let x ← Bfe.slice xs (i * nx) nx
      let y ← transform op.sub x t
      writeBlock ret (i * nx) y)
    (fun pre ret => ret.length = xs.length ∧ ∀ i ∈ pre, dvChunk nx ret i = List.zipWith op.sub (dvChunk nx xs i) t)
    order [] (List.replicate xs.length op.zero) (by simp) (by
      intro p i q ret hl ⟨hr1, hr2⟩
      have hi : i < n := by
        have : i ∈ order := by rw [hl]; simp
        simpa using ho.mem_iff.mp this
      obtain ⟨e1, e2⟩ := bfe_slice_ok hlen hi
      have hle : i * nx + nx ≤ n * nx := by
        have := Nat.mul_le_mul_right nx hi
        rwa [Nat.succ_mul] at this
      rw [e1]
      simp only [Outcome.bind_ok]
      unfold transform
      rw [if_neg (by omega)]
      simp only [Outcome.bind_ok]
      have hzl : (List.zipWith op.sub (dvChunk nx xs i) t).length = nx := by simp [e2, ht]
      obtain ⟨ret', h1, h2, h3⟩ := writeBlock_spec (List.zipWith op.sub (dvChunk nx xs i) t) ret (i * nx)
        (by rw [hzl]; omega)
      rw [h1, Outcome.sat_ok]
      rw [hzl] at h3
      refine ⟨by omega, fun j hj => ?_⟩
      have hsame : dvChunk nx ret' i = List.zipWith op.sub (dvChunk nx xs i) t := by
        apply List.ext_getElem?
        intro k
        by_cases hk : k < nx
        · rw [dvChunk_get hk, h3, if_pos (by omega)]
          congr 1; omega
        · rw [List.getElem?_eq_none (by unfold dvChunk; simp; omega), List.getElem?_eq_none (by rw [hzl]; omega)]
      by_cases hji : j = i
      · subst hji; exact hsame
      · have hjp : j ∈ p := by
          simp only [List.nil_append, List.mem_append, List.mem_singleton] at hj
          rcases hj with h | h
          · exact h
          · exact absurd h hji
        rw [← hr2 j (by simpa using hjp)]
        apply List.ext_getElem?
        intro k
        by_cases hk : k < nx
        · rw [dvChunk_get hk, dvChunk_get hk, h3, if_neg]
          rintro ⟨h4, h5⟩
          rcases Nat.lt_or_gt_of_ne hji with h6 | h6
          · have := Nat.mul_le_mul_right nx h6
            rw [Nat.succ_mul] at this; omega
          · have := Nat.mul_le_mul_right nx h6
            rw [Nat.succ_mul] at this; omega
        · rw [List.getElem?_eq_none (by unfold dvChunk; simp; omega), List.getElem?_eq_none (by unfold dvChunk; simp; omega)])
  obtain ⟨ys, hy⟩ := key.isOk
  rw [hy, Outcome.sat_ok] at key
  exact ⟨ys, hy, key.1, fun i hi => key.2 i (by simpa using ho.mem_iff.mpr (List.mem_range.mpr hi))⟩

/-- **C23.** If the inner batch evaluation agrees with single evaluation, so does that of the translated problem: the
result (or the exception) is that of the concatenation of the fitnesses, whatever the order in which the parallel loop
handles the decision vectors, for any arithmetic. -/
theorem C23_batch (op : Fl.Ops K) (p : Inner K) (hp : BatchAgrees p) {t xs : List (Fl K)}
    {order : List Nat} (ht : t.length = p.prob.nx) (hxs : xs.length % p.prob.nx = 0)
    (ho : order.Perm (List.range (xs.length / p.prob.nx))) :
    translateBatch op p t xs order =
      ((List.range (xs.length / p.prob.nx)).mapM fun i => translateFitness op p t (dvChunk p.prob.nx xs i)) >>=
        fun l => .ok l.flatten := by
  have hlen : xs.length = xs.length / p.prob.nx * p.prob.nx := (Nat.div_mul_cancel (Nat.dvd_of_mod_eq_zero hxs)).symm
  obtain ⟨ys, h1, h2, h3⟩ := deshift_ok op ht hlen ho
  unfold translateBatch
  rw [h1]
  simp only [Outcome.bind_ok]
  rw [hp ys (by rw [h2]; exact hxs), h2]
  congr 1
  have : ∀ l : List Nat, (∀ i ∈ l, i < xs.length / p.prob.nx) →
      (l.mapM fun i => p.fitness (dvChunk p.prob.nx ys i)) = l.mapM fun i => translateFitness op p t (dvChunk p.prob.nx xs i) := by
    intro l hl
    induction l with
    | nil => rfl
    | cons i l ih =>
      rw [List.mapM_cons, List.mapM_cons, ih (fun j hj => hl j (by simp [hj]))]
      congr 1
      have hi := hl i (by simp)
      rw [h3 i hi]
      unfold translateFitness translateBack transform
      have := (bfe_slice_ok hlen hi).2
      rw [if_neg (by omega)]; rfl
  exact this _ (fun i hi => List.mem_range.mp hi)

end anyop

section exact
variable {K : Type} [Field K] [LinearOrder K] [IsStrictOrderedRing K]

theorem fl_shift_le {a x : Fl K} (hx : x ≠ .nan) (k : K) : Fl.add a (.fin k) ≤ x ↔ a ≤ Fl.sub x (.fin k) := by
  cases a <;> cases x <;> simp_all [Fl.add, Fl.sub, Fl.neg, Fl.le_def, Fl.cls]

theorem fl_le_shift {a x : Fl K} (ha : a ≠ .nan) (k : K) : x ≤ Fl.add a (.fin k) ↔ Fl.sub x (.fin k) ≤ a := by
  cases a <;> cases x <;> simp_all [Fl.add, Fl.sub, Fl.neg, Fl.le_def, Fl.cls]

/-- **C23.** A point without NaN is inside the bounds of the translated problem exactly when the point shifted back is
inside the inner bounds (exact arithmetic, finite shift; infinite bounds included). -/
theorem C23_bounds (p : Inner K) {t : List K} (ht : t.length = p.prob.nx) (hb : SaneBounds p.prob.lb p.prob.ub p.prob.nix)
    {x : List (Fl K)} (hx : x.length = p.prob.nx) (hnan : ∀ a ∈ x, a ≠ .nan) :
    ∃ l u, translateBounds (Fl.exact K) p (t.map .fin) = .ok (l, u) ∧ l.length = p.prob.nx ∧ u.length = p.prob.nx ∧
      ((∀ (i : Nat) (a b c : Fl K), x[i]? = some a → l[i]? = some b → u[i]? = some c → b ≤ a ∧ a ≤ c) ↔
       (∀ (i : Nat) (a b c : Fl K) (k : K), x[i]? = some a → p.prob.lb[i]? = some b → p.prob.ub[i]? = some c →
          t[i]? = some k → b ≤ Fl.sub a (.fin k) ∧ Fl.sub a (.fin k) ≤ c)) := by
  have hl : p.prob.ub.length = p.prob.nx := hb.len.symm
  have hlb : p.prob.lb.length = p.prob.nx := rfl
  refine ⟨List.zipWith Fl.add p.prob.lb (t.map .fin), List.zipWith Fl.add p.prob.ub (t.map .fin), ?_,
    by simp [ht, hlb], by simp [ht, hl], ?_⟩
  · unfold translateBounds applyTranslation transform
    rw [if_neg (by simp [ht, hlb]), if_neg (by simp [ht, hl])]; rfl
  · have hsome : ∀ i : Nat, i < p.prob.nx → ∃ a b c k, x[i]? = some a ∧ p.prob.lb[i]? = some b ∧ p.prob.ub[i]? = some c ∧
        t[i]? = some k := fun i hi =>
      ⟨_, _, _, _, List.getElem?_eq_getElem (by omega), List.getElem?_eq_getElem (by omega),
        List.getElem?_eq_getElem (by omega), List.getElem?_eq_getElem (by omega)⟩
    have hz : ∀ (m : List (Fl K)) (i : Nat) (b : Fl K) (k : K), m[i]? = some b → t[i]? = some k →
        (List.zipWith Fl.add m (t.map .fin))[i]? = some (Fl.add b (.fin k)) := by
      intro m i b k h1 h2
      rw [List.getElem?_zipWith, List.getElem?_map, h1, h2]; rfl
    have hun : ∀ (i : Nat) (c : Fl K), p.prob.ub[i]? = some c → c ≠ .nan := by
      intro i c hc
      have hi := (List.getElem?_eq_some_iff.mp hc).1
      obtain ⟨a, b, c', k, -, e2, e3, -⟩ := hsome i (by omega)
      rw [hc] at e3; cases e3
      exact (hb.ordered i b c e2 hc).2.1
    constructor
    · intro H i a b c k h1 h2 h3 h4
      have := H i a _ _ h1 (hz _ i b k h2 h4) (hz _ i c k h3 h4)
      exact ⟨(fl_shift_le (hnan a (List.mem_of_getElem? h1)) k).mp this.1, (fl_le_shift (hun i c h3) k).mp this.2⟩
    · intro H i a b' c' h1 h2 h3
      obtain ⟨a', b, c, k, e1, e2, e3, e4⟩ := hsome i (by have := (List.getElem?_eq_some_iff.mp h1).1; omega)
      rw [hz _ i b k e2 e4] at h2
      rw [hz _ i c k e3 e4] at h3
      cases h2; cases h3
      have := H i a b c k h1 e2 e3 e4
      exact ⟨(fl_shift_le (hnan a (List.mem_of_getElem? h1)) k).mpr this.1, (fl_le_shift (hun i c e3) k).mpr this.2⟩

omit [LinearOrder K] [IsStrictOrderedRing K] in
theorem fl_add_assoc_fin (a : Fl K) (k l : K) : Fl.add (Fl.add a (.fin k)) (.fin l) = Fl.add a (.fin (k + l)) := by
  cases a <;> simp [Fl.add, add_assoc]

omit [LinearOrder K] [IsStrictOrderedRing K] in
theorem fl_sub_sub_fin (a : Fl K) (k l : K) : Fl.sub (Fl.sub a (.fin l)) (.fin k) = Fl.sub a (.fin (k + l)) := by
  cases a <;> simp [Fl.sub, Fl.neg, Fl.add]
  ring

omit [LinearOrder K] [IsStrictOrderedRing K] in
theorem zip_shift (f : Fl K → Fl K → Fl K) (hf : ∀ (a : Fl K) (k l : K), f (f a (.fin k)) (.fin l) = f a (.fin (l + k)))
    (x : List (Fl K)) (t s : List K) :
    List.zipWith f (List.zipWith f x (t.map .fin)) (s.map .fin) =
      List.zipWith f x ((List.zipWith (· + ·) s t).map .fin) := by
  apply List.ext_getElem?
  intro i
  simp only [List.getElem?_zipWith, List.getElem?_map]
  cases x[i]? <;> cases t[i]? <;> cases s[i]? <;> simp [hf]

omit [IsStrictOrderedRing K] in
/-- **C23.** Translating by `t` and the result by `s` is translating by `t + s`: same fitness (exceptions included) at
every point, same bounds (exact arithmetic). -/
theorem C23_compose (p : Inner K) {t s : List K} (ht : t.length = p.prob.nx) (hs : s.length = p.prob.nx)
    (hb : p.prob.ub.length = p.prob.nx) :
    let both := (List.zipWith (· + ·) t s).map Fl.fin
    translateCtor (translated (Fl.exact K) p (t.map .fin)) (s.map .fin) = .ok () ∧ translateCtor p both = .ok () ∧
    translateBounds (Fl.exact K) (translated (Fl.exact K) p (t.map .fin)) (s.map .fin) =
      translateBounds (Fl.exact K) p both ∧
    ∀ x : List (Fl K), x.length = p.prob.nx →
      translateFitness (Fl.exact K) (translated (Fl.exact K) p (t.map .fin)) (s.map .fin) x =
        translateFitness (Fl.exact K) p both x := by
  intro both
  have hlb : p.prob.lb.length = p.prob.nx := rfl
  have hcomm : List.zipWith (· + ·) s t = List.zipWith (· + ·) t s := by
    rw [List.zipWith_comm]; congr 1; funext a b; exact add_comm _ _
  have hn : (translated (Fl.exact K) p (t.map .fin)).prob.nx = p.prob.nx := by
    unfold translated Problem.nx; simp [ht, hlb]
  have hn2 : (translated (Fl.exact K) p (t.map .fin)).prob.nf = p.prob.nf := rfl
  refine ⟨?_, ?_, ?_, ?_⟩
  · unfold translateCtor; rw [hn]; simp [hs]
  · unfold translateCtor; simp [both, ht, hs]
  · unfold translateBounds applyTranslation transform
    have h1 : (translated (Fl.exact K) p (t.map .fin)).prob.lb = List.zipWith Fl.add p.prob.lb (t.map .fin) := rfl
    have h2 : (translated (Fl.exact K) p (t.map .fin)).prob.ub = List.zipWith Fl.add p.prob.ub (t.map .fin) := rfl
    rw [h1, h2, if_neg (by simp [ht, hs, hlb]), if_neg (by simp [ht, hs, hb]), if_neg (by simp [both, ht, hs, hlb]),
      if_neg (by simp [both, ht, hs, hb])]
    have hadd : ∀ (a : Fl K) (k l : K), Fl.add (Fl.add a (.fin k)) (.fin l) = Fl.add a (.fin (l + k)) := by
      intro a k l; rw [fl_add_assoc_fin, add_comm]
    change Outcome.ok (List.zipWith Fl.add (List.zipWith Fl.add p.prob.lb _) _, List.zipWith Fl.add (List.zipWith Fl.add p.prob.ub _) _) = _
    rw [zip_shift Fl.add hadd, zip_shift Fl.add hadd, hcomm]; rfl
  · intro x hx
    have hsub : ∀ (a : Fl K) (k l : K), Fl.sub (Fl.sub a (.fin k)) (.fin l) = Fl.sub a (.fin (l + k)) := by
      intro a k l; rw [fl_sub_sub_fin]
    have e1 : translateFitness (Fl.exact K) p both x = p.fitness (List.zipWith Fl.sub x both) := by
      unfold translateFitness translateBack transform
      rw [if_neg (by simp [both, ht, hs, hx])]; rfl
    have e2 : translateFitness (Fl.exact K) (translated (Fl.exact K) p (t.map .fin)) (s.map .fin) x =
        (translated (Fl.exact K) p (t.map .fin)).fitness (List.zipWith Fl.sub x (s.map .fin)) := by
      unfold translateFitness translateBack transform
      rw [if_neg (by simp [hs, hx])]; rfl
    have e3 : translateFitness (Fl.exact K) p (t.map .fin) (List.zipWith Fl.sub x (s.map .fin)) =
        p.fitness (List.zipWith Fl.sub x both) := by
      unfold translateFitness translateBack transform
      rw [if_neg (by simp [hs, ht, hx])]
      change p.fitness (List.zipWith Fl.sub (List.zipWith Fl.sub x _) _) = _
      rw [zip_shift Fl.sub hsub]
    rw [e1, e2]
    unfold Inner.fitness
    rw [hn, hn2]
    have hl1 : checkLen p.prob.nx (List.zipWith Fl.sub x (s.map .fin)) = .ok () := by
      unfold checkLen; rw [if_neg (by simp [hs, hx])]
    have hl2 : checkLen p.prob.nx (List.zipWith Fl.sub x both) = .ok () := by
      unfold checkLen; rw [if_neg (by simp [both, hs, ht, hx])]
    rw [hl1, hl2]
    simp only [Outcome.bind_ok]
    change (ofUser (toUser (translateFitness (Fl.exact K) p (t.map .fin) (List.zipWith Fl.sub x (s.map .fin)))) >>= _) = _
    rw [e3]
    unfold Inner.fitness
    rw [hl2]
    simp only [Outcome.bind_ok]
    cases p.user (List.zipWith Fl.sub x both) with
    | error e => rfl
    | ok f =>
      simp only [ofUser, Outcome.bind_ok]
      unfold checkLen
      by_cases hf : f.length ≠ p.prob.nf
      · rw [if_pos hf]; rfl
      · rw [if_neg hf]; simp only [Outcome.bind_ok, toUser]; rw [if_neg hf]; rfl

theorem fl_add_mono {a b : Fl K} (ha : a ≠ .nan) (hb : b ≠ .nan) (h : a ≤ b) (k : K) :
    Fl.add a (.fin k) ≠ .nan ∧ Fl.add b (.fin k) ≠ .nan ∧ Fl.add a (.fin k) ≤ Fl.add b (.fin k) := by
  cases a <;> cases b <;> simp_all [Fl.add, Fl.le_def, Fl.cls]

/-- **C23.** The translated problem can be put into a `problem` exactly when the shift is whole in every integer
component that has a finite bound: otherwise the constructor throws `std::invalid_argument`. -/
theorem C23_constructible [FloorRing K] (p : Inner K) {t : List K} (ht : t.length = p.prob.nx)
    (hb : SaneBounds p.prob.lb p.prob.ub p.prob.nix) :
    let whole := ∀ (i : Nat) (k a : K), p.prob.nx - p.prob.nix ≤ i → t[i]? = some k →
      (p.prob.lb[i]? = some (.fin a) ∨ p.prob.ub[i]? = some (.fin a)) → ∃ z : ℤ, k = z
    ∃ l u, translateBounds (Fl.exact K) p (t.map .fin) = .ok (l, u) ∧
      (checkBounds l u p.prob.nix = .ok () ↔ whole) ∧
      (checkBounds l u p.prob.nix = .throws .invalidArgument ↔ ¬ whole) := by
  intro whole
  have hl : p.prob.ub.length = p.prob.nx := hb.len.symm
  have hlb : p.prob.lb.length = p.prob.nx := rfl
  refine ⟨List.zipWith Fl.add p.prob.lb (t.map .fin), List.zipWith Fl.add p.prob.ub (t.map .fin), ?_, ?_⟩
  · unfold translateBounds applyTranslation transform
    rw [if_neg (by simp [ht, hlb]), if_neg (by simp [ht, hl])]; rfl
  · have hz : ∀ (m : List (Fl K)) (i : Nat) (b : Fl K), (List.zipWith Fl.add m (t.map .fin))[i]? = some b →
        ∃ a k, m[i]? = some a ∧ t[i]? = some k ∧ b = Fl.add a (.fin k) := by
      intro m i b h
      rw [List.getElem?_zipWith, List.getElem?_map] at h
      cases h1 : m[i]? <;> cases h2 : t[i]? <;> simp [h1, h2] at h
      exact ⟨_, _, rfl, rfl, h.symm⟩
    have hput : ∀ (m : List (Fl K)) (i : Nat) (b : Fl K) (k : K), m[i]? = some b → t[i]? = some k →
        (List.zipWith Fl.add m (t.map .fin))[i]? = some (Fl.add b (.fin k)) := by
      intro m i b k h1 h2
      rw [List.getElem?_zipWith, List.getElem?_map, h1, h2]; rfl
    have hfin : ∀ (a : Fl K) (k c : K), Fl.add a (.fin k) = .fin c → ∃ a', a = .fin a' ∧ c = a' + k := by
      intro a k c h
      cases a <;> simp [Fl.add] at h
      exact ⟨_, rfl, h.symm⟩
    have hlen : (List.zipWith Fl.add p.prob.lb (t.map .fin)).length = p.prob.nx := by simp [hlb, ht]
    have hiff : SaneBounds (List.zipWith Fl.add p.prob.lb (t.map .fin)) (List.zipWith Fl.add p.prob.ub (t.map .fin))
        p.prob.nix ↔ whole := by
      constructor
      · intro hs i k a hi hk ha
        have hi' : (List.zipWith Fl.add p.prob.lb (t.map .fin)).length - p.prob.nix ≤ i := by omega
        rcases ha with ha | ha
        · obtain ⟨z, hz1⟩ := hs.intL i (a + k) hi' (hput _ i _ k ha hk)
          obtain ⟨z', hz2⟩ := hb.intL i a (by omega) ha
          exact ⟨z - z', by push_cast; rw [← hz1, ← hz2]; ring⟩
        · obtain ⟨z, hz1⟩ := hs.intU i (a + k) hi' (hput _ i _ k ha hk)
          obtain ⟨z', hz2⟩ := hb.intU i a (by omega) ha
          exact ⟨z - z', by push_cast; rw [← hz1, ← hz2]; ring⟩
      · intro hw
        refine ⟨?_, by simp [hl, hlb], ?_, ?_, ?_, ?_⟩
        · intro h
          have := congrArg List.length h
          rw [hlen] at this
          exact hb.nonempty (List.eq_nil_of_length_eq_zero this)
        · intro i l u h1 h2
          obtain ⟨a, k, e1, e2, rfl⟩ := hz _ i l h1
          obtain ⟨b, k', e3, e4, rfl⟩ := hz _ i u h2
          rw [e2] at e4; cases e4
          obtain ⟨n1, n2, n3⟩ := hb.ordered i a b e1 e3
          exact fl_add_mono n1 n2 n3 k
        · rw [hlen]; exact hb.nixLe
        · intro i c hi h
          rw [hlen] at hi
          obtain ⟨a, k, e1, e2, e3⟩ := hz _ i _ h
          obtain ⟨a', rfl, rfl⟩ := hfin a k c e3.symm
          obtain ⟨z, hz1⟩ := hw i k a' hi e2 (Or.inl e1)
          obtain ⟨z', hz2⟩ := hb.intL i a' (by omega) e1
          exact ⟨z' + z, by push_cast; rw [← hz1, ← hz2]⟩
        · intro i c hi h
          rw [hlen] at hi
          obtain ⟨a, k, e1, e2, e3⟩ := hz _ i _ h
          obtain ⟨a', rfl, rfl⟩ := hfin a k c e3.symm
          obtain ⟨z, hz1⟩ := hw i k a' hi e2 (Or.inr e1)
          obtain ⟨z', hz2⟩ := hb.intU i a' (by omega) e1
          exact ⟨z' + z, by push_cast; rw [← hz1, ← hz2]⟩
    have hc := C19_bounds (List.zipWith Fl.add p.prob.lb (t.map .fin)) (List.zipWith Fl.add p.prob.ub (t.map .fin)) p.prob.nix
    rw [hiff] at hc
    exact hc

end exact

/-! ## Examples -/

/-- A problem with one real and one integer variable, unbounded above in the first; fitness = the sum, NaN rejected. -/
def shiftDemo : Inner ℚ where
  prob := { lb := [.fin 0, .fin 1], ub := [.pinf, .fin 5], nix := 1, nobj := 1, nec := 0, nic := 0, gsDim := 2, hsDim := [3],
            cTol := [] }
  user := fun x => match x with
    | [a, b] => .ok [Fl.add a b]
    | _ => .error (.user 1)
  ubatch := fun ys => match ys with
    | [] => .ok []
    | [a, b] => .ok [Fl.add a b]
    | _ => .error (.user 2)

theorem shiftDemo_sane : SaneBounds shiftDemo.prob.lb shiftDemo.prob.ub shiftDemo.prob.nix := by
  rw [← (C19_bounds _ _ _).1]; decide +kernel

example : translateFitness (Fl.exact ℚ) shiftDemo [.fin (1/2), .fin 2] [.fin 3, .fin 4] = .ok [.fin (9/2)] := by
  decide +kernel

example : translateBounds (Fl.exact ℚ) shiftDemo [.fin (1/2), .fin 2] = .ok ([.fin (1/2), .fin 3], [.pinf, .fin 7]) := by
  decide +kernel

/-- A shift that is not whole in the integer part: the translated problem cannot be constructed. -/
example : checkBounds [Fl.fin ((0 : ℚ) + 0), .fin (1 + 1/2)] [.pinf, .fin (5 + 1/2)] 1 = .throws .invalidArgument := by
  decide +kernel

/-- A problem whose batch evaluation agrees with single evaluation. -/
def sumDemo : Inner ℚ where
  prob := { lb := [.fin 0], ub := [.fin 1], nix := 0, nobj := 1, nec := 0, nic := 0, gsDim := 1, hsDim := [1], cTol := [] }
  user := fun x => .ok x
  ubatch := fun ys => .ok ys

example : BatchAgrees sumDemo := by
  intro ys hys
  have hnx : sumDemo.prob.nx = 1 := rfl
  rw [hnx, Nat.div_one, Outcome.mapM_ok (fun i => dvChunk 1 ys i)]
  · simp only [Outcome.bind_ok]
    change Outcome.ok ys = _
    congr 1
    clear hys
    induction ys with
    | nil => rfl
    | cons y ys ih =>
      rw [List.length_cons, List.range_succ_eq_map, List.map_cons, List.flatten_cons, List.map_map]
      have : (fun i => dvChunk 1 (y :: ys) i) ∘ Nat.succ = fun i => dvChunk 1 ys i := by
        funext i; simp [dvChunk]
      rw [this, ← ih]
      simp [dvChunk]
  · intro i hi
    rw [List.mem_range] at hi
    have hl : (dvChunk 1 ys i).length = 1 := by unfold dvChunk; simp; omega
    unfold Inner.fitness
    have h1 : checkLen sumDemo.prob.nx (dvChunk 1 ys i) = .ok () := by
      unfold checkLen; rw [hnx, if_neg (by omega)]
    have h2 : checkLen sumDemo.prob.nf (dvChunk 1 ys i) = .ok () := by
      unfold checkLen
      have : sumDemo.prob.nf = 1 := rfl
      rw [this, if_neg (by omega)]
    rw [h1]
    simp only [Outcome.bind_ok]
    change (checkLen sumDemo.prob.nf (dvChunk 1 ys i) >>= fun _ => Outcome.ok (dvChunk 1 ys i)) = _
    rw [h2]; rfl

end Verif.Props
