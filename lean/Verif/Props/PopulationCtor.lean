import Verif.Model.PopulationCtor
import Verif.Props.Random
import Verif.Props.Population
import Verif.Props.Bfe

/-!
# C156: a population does not depend on how its individuals were evaluated
-/

set_option autoImplicit false
set_option linter.unusedSectionVars false

namespace Verif.Props

open Verif Rnd Prob PopCtor

variable {K σ : Type} [Field K] [LinearOrder K]

/-! ## What is drawn -/

/-- run a list of draws -/
def pcDraws (D : Nat → σ → Fl K × σ) : List Nat → σ → List (Fl K) × σ
  | [], e => ([], e)
  | i :: is, e => ((D i e).1 :: (pcDraws D is (D i e).2).1, (pcDraws D is (D i e).2).2)

theorem pcDraws_append (D : Nat → σ → Fl K × σ) (l m : List Nat) (e : σ) :
    pcDraws D (l ++ m) e = ((pcDraws D l e).1 ++ (pcDraws D m (pcDraws D l e).2).1, (pcDraws D m (pcDraws D l e).2).2) := by
  induction l generalizing e with
  | nil => rfl
  | cons i l ih => simp [pcDraws, ih]

theorem pcDraws_length (D : Nat → σ → Fl K × σ) (l : List Nat) (e : σ) : (pcDraws D l e).1.length = l.length := by
  induction l generalizing e with
  | nil => rfl
  | cons i l ih => simp [pcDraws, ih]

/-- a loop that writes the `i`-th draw at the place `base + i` -/
theorem pc_fold {f : List (Fl K) → Nat → Run σ (List (Fl K))} {D : Nat → σ → Fl K × σ} (base size : Nat) (k m : Nat)
    (hf : ∀ (out : List (Fl K)) (i : Nat) (e : σ), out.length = size → m ≤ i → i < m + k → f out i e = (.ok (out.set (base + i) (D i e).1), (D i e).2))
    (out : List (Fl K)) (e : σ) (ho : out.length = size) (hs : base + m + k ≤ size) :
    (List.range' m k).foldlM f out e =
      (.ok (out.take (base + m) ++ (pcDraws D (List.range' m k) e).1 ++ out.drop (base + m + k)), (pcDraws D (List.range' m k) e).2) := by
  induction k generalizing m out e with
  | zero => simp [pcDraws]; rfl
  | succ k ih =>
    rw [List.range'_succ, List.foldlM_cons]
    show Run.bind (f out m) _ e = _
    unfold Run.bind
    rw [hf out m e ho le_rfl (by omega)]
    simp only
    rw [ih (m + 1) (fun out i e h1 h2 h3 => hf out i e h1 (by omega) (by omega)) _ _ (by simpa using ho) (by omega)]
    simp only [pcDraws, Prod.mk.injEq, Outcome.ok.injEq, and_true]
    rw [show base + (m + 1) = base + m + 1 by omega, show base + m + 1 + k = base + m + (k + 1) by omega]
    rw [List.drop_set_of_lt (by omega), List.take_set, List.take_succ_eq_append_getElem (by omega), List.set_append_right _ _ (by simp)]
    simp only [List.length_take, List.append_assoc, List.append_cancel_left_eq]
    rw [show base + m - min (base + m) out.length = 0 by omega]
    rfl

/-- the draw of one component: a real number in its interval, nothing if it is a point, an integer number for the integer part -/
def pcDraw [FloorRing K] (g : Gen K σ) (isInt : Bool) (l u : Fl K) (e : σ) : Fl K × σ :=
  match l, u with
  | .fin a, .fin b =>
    if isInt then (.fin (g.ofInt (g.int ⌊a⌋ ⌊b⌋ e).1), (g.int ⌊a⌋ ⌊b⌋ e).2)
    else if a = b then (.fin a, e)
    else (.fin (g.real a b e).1, (g.real a b e).2)
  | _, _ => (l, e)

/-- the draw of the component `i` -/
def pcAt [FloorRing K] (g : Gen K σ) (lb ub : List (Fl K)) (nix i : Nat) : σ → Fl K × σ :=
  pcDraw g (decide (lb.length - nix ≤ i)) (lb.getD i (.fin 0)) (ub.getD i (.fin 0))

/-- a decision vector -/
def pcVec [FloorRing K] (g : Gen K σ) (lb ub : List (Fl K)) (nix : Nat) (e : σ) : List (Fl K) × σ :=
  pcDraws (pcAt g lb ub nix) (List.range lb.length) e

/-- several decision vectors -/
def pcVecs [FloorRing K] (g : Gen K σ) (lb ub : List (Fl K)) (nix : Nat) : Nat → σ → List (List (Fl K)) × σ
  | 0, e => ([], e)
  | n + 1, e => ((pcVec g lb ub nix e).1 :: (pcVecs g lb ub nix n (pcVec g lb ub nix e).2).1, (pcVecs g lb ub nix n (pcVec g lb ub nix e).2).2)

variable {g : Gen K σ} {op : Fl.Ops K}

theorem pc_bind {α β : Type} {m : Run σ α} {f : α → Run σ β} {e e' : σ} {a : α} (h : m e = (.ok a, e')) : (m >>= f) e = f a e' := by
  show Run.bind m f e = _
  unfold Run.bind
  rw [h]

theorem pc_lift {α β : Type} {f : α → Run σ β} {e : σ} {a : α} : (Run.lift (.ok a) >>= f) e = f a e := rfl

theorem pc_get {l : List (Fl K)} {i : Nat} (h : i < l.length) (e : σ) : Run.lift (Outcome.get l i) e = (.ok (l.getD i (.fin 0)), e) := by
  unfold Run.lift
  rw [Outcome.get_of_lt h, List.getD_eq_getElem?_getD, List.getElem?_eq_getElem h]
  rfl

variable [FloorRing K] [IsStrictOrderedRing K]

/-- what is known of the bounds of a component that can be drawn -/
theorem pc_real {lb ub : List (Fl K)} {nix i : Nat} (hs : SaneBounds lb ub nix) (hi : i < lb.length - nix) (hd : Drawable op lb ub nix i) :
    ∃ a b, lb.getD i (.fin 0) = .fin a ∧ ub.getD i (.fin 0) = .fin b ∧ a ≤ b ∧ (op.sub (.fin b) (.fin a)).isFinite = true := by
  have hl := hs.len
  have e1 : lb[i]? = some lb[i] := List.getElem?_eq_getElem (by omega)
  have e2 : ub[i]? = some ub[i] := List.getElem?_eq_getElem (by omega)
  obtain ⟨f1, f2, f3, -⟩ := hd _ _ e1 e2
  obtain ⟨-, -, hle⟩ := hs.ordered i _ _ e1 e2
  obtain ⟨a, ha⟩ := fin_of_finite f1
  obtain ⟨b, hb⟩ := fin_of_finite f2
  have f3 := f3 hi
  rw [ha, hb] at f3 hle
  refine ⟨a, b, ?_, ?_, by simpa using hle, f3⟩
  · rw [List.getD_eq_getElem?_getD, e1, ha]; rfl
  · rw [List.getD_eq_getElem?_getD, e2, hb]; rfl

theorem pc_int {lb ub : List (Fl K)} {nix i : Nat} (hs : SaneBounds lb ub nix) (hi : lb.length - nix ≤ i) (hi' : i < lb.length)
    (hd : Drawable op lb ub nix i) :
    ∃ a b : ℤ, lb.getD i (.fin 0) = .fin (a : K) ∧ ub.getD i (.fin 0) = .fin (b : K) ∧ a ≤ b ∧ (-2 ^ 63 ≤ a ∧ a ≤ 2 ^ 63 - 1) ∧ (-2 ^ 63 ≤ b ∧ b ≤ 2 ^ 63 - 1) := by
  have hl := hs.len
  have e1 : lb[i]? = some lb[i] := List.getElem?_eq_getElem (by omega)
  have e2 : ub[i]? = some ub[i] := List.getElem?_eq_getElem (by omega)
  obtain ⟨f1, f2, -, f4⟩ := hd _ _ e1 e2
  obtain ⟨-, -, hle⟩ := hs.ordered i _ _ e1 e2
  obtain ⟨a, ha⟩ := fin_of_finite f1
  obtain ⟨b, hb⟩ := fin_of_finite f2
  obtain ⟨x, rfl⟩ := hs.intL i a hi (by rw [e1, ha])
  obtain ⟨y, rfl⟩ := hs.intU i b hi (by rw [e2, hb])
  rw [ha, hb] at hle
  refine ⟨x, y, ?_, ?_, by simpa using hle, f4 hi x (Or.inl ha), f4 hi y (Or.inr hb)⟩
  · rw [List.getD_eq_getElem?_getD, e1, ha]; rfl
  · rw [List.getD_eq_getElem?_getD, e2, hb]; rfl

theorem pc_eqFin (a b : K) : Fl.eq (.fin a) (.fin b) = decide (a = b) := by
  simp [Fl.eq]

theorem pc_rdvReal {lb ub out : List (Fl K)} {nix i : Nat} (hs : SaneBounds lb ub nix) (ho : out.length = lb.length) (hi : i < lb.length - nix)
    (hd : Drawable op lb ub nix i) (e : σ) :
    rdvReal g op lb ub out i e = (.ok (out.set i (pcAt g lb ub nix i e).1), (pcAt g lb ub nix i e).2) := by
  have hl := hs.len
  obtain ⟨a, b, ea, eb, hab, hf⟩ := pc_real hs hi hd
  unfold rdvReal pcAt
  rw [pc_bind (pc_get (by omega) e), pc_bind (pc_get (by omega) e), ea, eb]
  have hu : uniformReal true false true g op (.fin a) (.fin b) e = (.ok (pcDraw g (decide (lb.length - nix ≤ i)) (.fin a) (.fin b) e).1,
      (pcDraw g (decide (lb.length - nix ≤ i)) (.fin a) (.fin b) e).2) := by
    have hc : realChecks true false true op (Fl.fin a) (.fin b) = .ok () := by
      have h1 (x : K) : (Fl.fin x).isFinite = true := rfl
      unfold realChecks
      simp [h1, hf]
    unfold uniformReal pcDraw
    rw [hc, pc_lift, pc_eqFin]
    have hd : decide (lb.length - nix ≤ i) = false := decide_eq_false (by omega)
    simp only [hd, Bool.false_eq_true, if_false, decide_eq_true_eq]
    by_cases hab' : a = b
    · rw [if_pos hab', if_pos hab']; rfl
    · rw [if_neg hab', if_neg hab']
      unfold Gen.drawReal
      simp only
      rw [if_pos ⟨hab, hf⟩]
  rw [pc_bind hu]
  unfold Run.lift
  rw [Outcome.set_of_lt (by omega)]

theorem pc_batchReal {lb ub out : List (Fl K)} {nix base i : Nat} (hs : SaneBounds lb ub nix) (ho : base + lb.length ≤ out.length)
    (hi : i < lb.length - nix) (hd : Drawable op lb ub nix i) (e : σ) :
    batchReal g op lb ub base out i e = (.ok (out.set (base + i) (pcAt g lb ub nix i e).1), (pcAt g lb ub nix i e).2) := by
  have hl := hs.len
  obtain ⟨a, b, ea, eb, hab, hf⟩ := pc_real hs hi hd
  unfold batchReal pcAt
  rw [pc_bind (pc_get (by omega) e), pc_bind (pc_get (by omega) e), ea, eb]
  have hu : drawOrEqual g op (.fin a) (.fin b) e = (.ok (pcDraw g (decide (lb.length - nix ≤ i)) (.fin a) (.fin b) e).1,
      (pcDraw g (decide (lb.length - nix ≤ i)) (.fin a) (.fin b) e).2) := by
    unfold drawOrEqual pcDraw
    rw [pc_eqFin]
    have hd : decide (lb.length - nix ≤ i) = false := decide_eq_false (by omega)
    simp only [hd, Bool.false_eq_true, if_false, decide_eq_true_eq]
    by_cases hab' : a = b
    · rw [if_pos hab', if_pos hab']; rfl
    · rw [if_neg hab', if_neg hab']
      unfold Gen.drawReal
      simp only
      rw [if_pos ⟨hab, hf⟩]
  rw [pc_bind hu]
  unfold Run.lift
  rw [Outcome.set_of_lt (by omega)]

theorem pc_rdvInt {lb ub out : List (Fl K)} {nix i : Nat} (hs : SaneBounds lb ub nix) (ho : out.length = lb.length) (hi : lb.length - nix ≤ i)
    (hi' : i < lb.length) (hd : Drawable op lb ub nix i) (e : σ) :
    rdvInt g lb ub out i e = (.ok (out.set i (pcAt g lb ub nix i e).1), (pcAt g lb ub nix i e).2) := by
  have hl := hs.len
  obtain ⟨a, b, ea, eb, hab, ha, hb⟩ := pc_int hs hi hi' hd
  unfold rdvInt pcAt
  rw [pc_bind (pc_get (by omega) e), pc_bind (pc_get (by omega) e), ea, eb]
  have hu : uniformIntegral true false false g (.fin (a : K)) (.fin (b : K)) e = (.ok (pcDraw g (decide (lb.length - nix ≤ i)) (.fin (a : K)) (.fin (b : K)) e).1,
      (pcDraw g (decide (lb.length - nix ≤ i)) (.fin (a : K)) (.fin (b : K)) e).2) := by
    have hc : intChecks true false false (Fl.fin (a : K)) (.fin (b : K)) = .ok () := by
      unfold intChecks
      simp [Fl.isFinite]
    unfold uniformIntegral pcDraw
    rw [hc, pc_lift, toLongLongs_int, if_pos ⟨ha, hb⟩, pc_lift]
    have hdr : g.drawInt a b e = (.ok (g.int a b e).1, (g.int a b e).2) := if_pos hab
    rw [pc_bind hdr]
    have hd : decide (lb.length - nix ≤ i) = true := decide_eq_true hi
    simp only [hd, if_true, Int.floor_intCast]
    rfl
  rw [pc_bind hu]
  unfold Run.lift
  rw [Outcome.set_of_lt (by omega)]

theorem pc_batchInt {lb ub out : List (Fl K)} {nix base i : Nat} (hs : SaneBounds lb ub nix) (ho : base + lb.length ≤ out.length)
    (hi : lb.length - nix ≤ i) (hi' : i < lb.length) (hd : Drawable op lb ub nix i) (e : σ) :
    batchInt g lb ub base out i e = (.ok (out.set (base + i) (pcAt g lb ub nix i e).1), (pcAt g lb ub nix i e).2) := by
  have hl := hs.len
  obtain ⟨a, b, ea, eb, hab, ha, hb⟩ := pc_int hs hi hi' hd
  unfold batchInt pcAt
  rw [pc_bind (pc_get (by omega) e), pc_bind (pc_get (by omega) e), ea, eb]
  have hc (z : ℤ) (hz : -2 ^ 63 ≤ z ∧ z ≤ 2 ^ 63 - 1) : castLongLong (Fl.fin (z : K)) = .ok z := by
    unfold castLongLong
    rw [toLongLong_int, if_neg (by omega)]
  rw [hc a ha, hc b hb, pc_lift, pc_lift]
  have hdr : g.drawInt a b e = (.ok (g.int a b e).1, (g.int a b e).2) := if_pos hab
  rw [pc_bind hdr]
  unfold Run.lift pcDraw
  have hd : decide (lb.length - nix ≤ i) = true := decide_eq_true hi
  simp only [hd, if_true, Int.floor_intCast]
  rw [Outcome.set_of_lt (by omega)]

theorem pc_split {lb : List (Fl K)} {nix : Nat} :
    List.range lb.length = List.range' 0 (lb.length - nix) ++ List.range' (lb.length - nix) (lb.length - (lb.length - nix)) := by
  have h := @List.range'_append_1 0 (lb.length - nix) (lb.length - (lb.length - nix))
  rw [Nat.zero_add] at h
  rw [h, List.range_eq_range']
  congr 1
  omega

/-- one decision vector, written at the place `base` of a longer vector -/
theorem pc_two {lb ub : List (Fl K)} {nix : Nat} {fR fI : List (Fl K) → Nat → Run σ (List (Fl K))} (base size : Nat)
    (hR : ∀ (out : List (Fl K)) (i : Nat) (e : σ), out.length = size → i < lb.length - nix →
      fR out i e = (.ok (out.set (base + i) (pcAt g lb ub nix i e).1), (pcAt g lb ub nix i e).2))
    (hI : ∀ (out : List (Fl K)) (i : Nat) (e : σ), out.length = size → lb.length - nix ≤ i → i < lb.length →
      fI out i e = (.ok (out.set (base + i) (pcAt g lb ub nix i e).1), (pcAt g lb ub nix i e).2))
    (out : List (Fl K)) (e : σ) (ho : out.length = size) (hs : base + lb.length ≤ size) :
    ((List.range (lb.length - nix)).foldlM fR out >>=
        fun out => (List.range' (lb.length - nix) (lb.length - (lb.length - nix))).foldlM fI out) e =
      (.ok (out.take base ++ (pcVec g lb ub nix e).1 ++ out.drop (base + lb.length)), (pcVec g lb ub nix e).2) := by
  have h1 := pc_fold (f := fR) (D := pcAt g lb ub nix) base size (lb.length - nix) 0
    (fun out i e h1 _ h3 => hR out i e h1 (by omega)) out e ho (by omega)
  rw [List.range_eq_range', pc_bind h1]
  have hlen := pcDraws_length (pcAt g lb ub nix) (List.range' 0 (lb.length - nix)) e
  rw [List.length_range'] at hlen
  rw [pc_fold (D := pcAt g lb ub nix) base size _ _ (fun out i e h1 h2 h3 => hI out i e h1 h2 (by omega)) _ _
    (by simp only [List.length_append, List.length_take, List.length_drop, hlen]; omega) (by omega)]
  unfold pcVec
  rw [pc_split (nix := nix), pcDraws_append]
  simp only [Prod.mk.injEq, Outcome.ok.injEq, and_true, Nat.add_zero]
  have e1 : (out.take base).length = base := by rw [List.length_take]; omega
  have e2 : (out.take base ++ (pcDraws (pcAt g lb ub nix) (List.range' 0 (lb.length - nix)) e).1).length = base + (lb.length - nix) := by
    rw [List.length_append, e1, hlen]
  rw [List.take_left' e2, show base + (lb.length - nix) + (lb.length - (lb.length - nix)) = (base + (lb.length - nix)) + (lb.length - (lb.length - nix)) from rfl,
    ← List.drop_drop, List.drop_left' e2, List.drop_drop, ← List.append_assoc]
  congr 2
  omega

/-- `random_decision_vector` -/
theorem pc_vec {lb ub : List (Fl K)} {nix : Nat} (hs : SaneBounds lb ub nix) (hd : ∀ i < lb.length, Drawable op lb ub nix i) (e : σ) :
    randomDecisionVector g op lb ub nix e = (.ok (pcVec g lb ub nix e).1, (pcVec g lb ub nix e).2) := by
  unfold randomDecisionVector
  have h := pc_two (g := g) (lb := lb) (ub := ub) (nix := nix) (fR := rdvReal g op lb ub) (fI := rdvInt g lb ub) 0 lb.length
    (fun out i e h1 h2 => by rw [Nat.zero_add]; exact pc_rdvReal hs h1 h2 (hd i (by omega)) e)
    (fun out i e h1 h2 h3 => by rw [Nat.zero_add]; exact pc_rdvInt hs h1 h2 h3 (hd i h3) e)
    (List.replicate lb.length (.fin 0)) e (by simp) (by omega)
  refine h.trans ?_
  simp

theorem pcVec_length (lb ub : List (Fl K)) (nix : Nat) (e : σ) : (pcVec g lb ub nix e).1.length = lb.length := by
  unfold pcVec
  rw [pcDraws_length, List.length_range]

theorem pcVecs_length (lb ub : List (Fl K)) (nix n : Nat) (e : σ) : (pcVecs g lb ub nix n e).1.length = n := by
  induction n generalizing e with
  | zero => rfl
  | succ n ih => simp [pcVecs, ih]

theorem pcVecs_mem {lb ub : List (Fl K)} {nix n : Nat} {e : σ} {x : List (Fl K)} (hx : x ∈ (pcVecs g lb ub nix n e).1) :
    ∃ e', x = (pcVec g lb ub nix e').1 := by
  induction n generalizing e with
  | zero => simp [pcVecs] at hx
  | succ n ih =>
    simp only [pcVecs, List.mem_cons] at hx
    rcases hx with hx | hx
    · exact ⟨_, hx⟩
    · exact ih hx

/-- the blocks of `batch_random_decision_vector` -/
theorem pc_blocks {lb ub : List (Fl K)} {nix : Nat} (hs : SaneBounds lb ub nix) (hd : ∀ i < lb.length, Drawable op lb ub nix i)
    (n k : Nat) (out : List (Fl K)) (e : σ) (ho : (k + n) * lb.length ≤ out.length) :
    (List.range' k n).foldlM (batchBlock g op lb ub nix) out e =
      (.ok (out.take (k * lb.length) ++ (pcVecs g lb ub nix n e).1.flatten ++ out.drop ((k + n) * lb.length)), (pcVecs g lb ub nix n e).2) := by
  induction n generalizing k out e with
  | zero => simp [pcVecs]; rfl
  | succ n ih =>
    have hk : (k + (n + 1)) * lb.length = k * lb.length + lb.length + n * lb.length := by ring
    have hk' : (k + 1 + n) * lb.length = k * lb.length + lb.length + n * lb.length := by ring
    have hk'' : (k + 1) * lb.length = k * lb.length + lb.length := by ring
    rw [List.range'_succ, List.foldlM_cons]
    have h1 := pc_two (g := g) (lb := lb) (ub := ub) (nix := nix) (fR := batchReal g op lb ub (k * lb.length)) (fI := batchInt g lb ub (k * lb.length))
      (k * lb.length) out.length
      (fun out' i e h1 h2 => pc_batchReal hs (by omega) h2 (hd i (by omega)) e)
      (fun out' i e h1 h2 h3 => pc_batchInt hs (by omega) h2 h3 (hd i h3) e) out e rfl (by omega)
    have h2 : batchBlock g op lb ub nix out k e = _ := h1
    rw [pc_bind h2, ih (k + 1) _ _ (by
      simp only [List.length_append, List.length_take, List.length_drop, pcVec_length]; omega)]
    have e1 : (out.take (k * lb.length)).length = k * lb.length := by rw [List.length_take]; omega
    have e2 : (out.take (k * lb.length) ++ (pcVec g lb ub nix e).1).length = (k + 1) * lb.length := by
      rw [List.length_append, e1, pcVec_length, hk'']
    simp only [pcVecs, Prod.mk.injEq, Outcome.ok.injEq, and_true, List.flatten_cons]
    rw [List.take_left' e2, show (k + 1 + n) * lb.length = (k + 1) * lb.length + n * lb.length by ring, ← List.drop_drop, List.drop_left' e2,
      List.drop_drop, hk]
    simp only [List.append_assoc]

/-- `batch_random_decision_vector` -/
theorem pc_batch {lb ub : List (Fl K)} {nix n : Nat} (hs : SaneBounds lb ub nix) (hd : ∀ i < lb.length, Drawable op lb ub nix i)
    (hsz : n * lb.length < 2 ^ 64) (e : σ) :
    batchRandomDecisionVector g op lb ub nix n e = (.ok (pcVecs g lb ub nix n e).1.flatten, (pcVecs g lb ub nix n e).2) := by
  have hnx : 0 < lb.length := List.length_pos_iff.mpr hs.nonempty
  unfold batchRandomDecisionVector
  simp only
  rw [if_neg (by omega), if_neg (by
    intro h
    have := (Nat.div_lt_iff_lt_mul hnx).mp h
    unfold sizeMax at this; omega)]
  have c1 : Chk ((List.range (lb.length - nix)).forM (batchCheckReal op lb ub)) _ :=
    Chk.forM (fun i hi => chk_batchReal lb ub nix hs.len i (List.mem_range.mp hi))
  have c2 : Chk ((List.range' (lb.length - nix) (lb.length - (lb.length - nix))).forM (batchCheckInt lb ub)) _ :=
    Chk.forM (fun i hi => by
      rw [List.mem_range'_1] at hi
      exact chk_batchInt (op := op) lb ub nix hs i hi.1 (by omega))
  rcases c1 with ⟨h1, -⟩ | ⟨-, h1⟩
  swap
  · exact (h1 (fun i hi => hd i (by rw [List.mem_range] at hi; omega))).elim
  rcases c2 with ⟨h2, -⟩ | ⟨-, h2⟩
  swap
  · exact (h2 (fun i hi => hd i (by rw [List.mem_range'_1] at hi; omega))).elim
  rw [h1, pc_lift, h2, pc_lift]
  have hw : w64 (lb.length * n) = n * lb.length := by
    unfold w64; rw [Nat.mul_comm]; exact Nat.mod_eq_of_lt hsz
  have hdiv : (n * lb.length + lb.length - 1) / lb.length = n := by
    rw [Nat.div_eq_iff hnx]
    constructor
    · have : n * lb.length + lb.length - 1 = n * lb.length + (lb.length - 1) := by omega
      omega
    · omega
  rw [hw, hdiv, List.range_eq_range', pc_blocks hs hd n 0 _ _ (by simp)]
  simp

/-! ## The loops -/

/-- the pair is a decision vector with its fitness -/
def Evaluated (p : PopCtor.Prob K) (q : List (Fl K) × List (Fl K)) : Prop := Pop.probFitness p.info q.1 (p.user q.1) = .ok q.2

theorem pc_drawLoop {p : PopCtor.Prob K} (hs : SaneBounds p.lb p.ub p.nix) (hd : ∀ i < p.lb.length, Drawable op p.lb p.ub p.nix i)
    (n : Nat) (e e' : σ) (qs : List (List (Fl K) × List (Fl K))) :
    drawLoop g op p n e = (.ok qs, e') ↔
      e' = (pcVecs g p.lb p.ub p.nix n e).2 ∧ qs.map Prod.fst = (pcVecs g p.lb p.ub p.nix n e).1 ∧ ∀ q ∈ qs, Evaluated p q := by
  induction n generalizing e qs with
  | zero =>
    constructor
    · intro h
      have h : ((.ok [], e) : Outcome (List (List (Fl K) × List (Fl K))) × σ) = (.ok qs, e') := h
      cases h
      exact ⟨rfl, rfl, by simp⟩
    · rintro ⟨rfl, h, -⟩
      have h : qs = [] := by simpa [pcVecs] using h
      subst h; rfl
  | succ n ih =>
    unfold drawLoop
    rw [pc_bind (pc_vec hs hd e)]
    simp only [pcVecs]
    rcases hf : Pop.probFitness p.info (pcVec g p.lb p.ub p.nix e).1 (p.user (pcVec g p.lb p.ub p.nix e).1) with f | x | _ | _
    · rw [pc_lift]
      constructor
      · intro h
        rcases hr : drawLoop g op p n (pcVec g p.lb p.ub p.nix e).2 with ⟨r | r | _ | _, e2⟩
        · rw [pc_bind hr] at h
          have h : ((.ok ((_, f) :: r), e2) : Outcome (List (List (Fl K) × List (Fl K))) × σ) = (.ok qs, e') := h
          cases h
          obtain ⟨h1, h2, h3⟩ := (ih _ _).mp hr
          refine ⟨h1, by simp [h2], ?_⟩
          intro q hq
          rw [List.mem_cons] at hq
          rcases hq with rfl | hq
          · exact hf
          · exact h3 q hq
        all_goals
          replace h : Run.bind _ _ _ = _ := h
          unfold Run.bind at h
          rw [hr] at h
          simp at h
      · rintro ⟨h1, h2, h3⟩
        rcases qs with _ | ⟨q, qs⟩
        · simp at h2
        · simp only [List.map_cons, List.cons.injEq] at h2
          rw [pc_bind ((ih _ qs).mpr ⟨h1, h2.2, fun q hq => h3 q (List.mem_cons_of_mem _ hq)⟩)]
          have := h3 q (by simp)
          unfold Evaluated at this
          rw [h2.1, hf] at this
          cases this
          rw [← h2.1]
          rfl
    all_goals
      constructor
      · intro h
        replace h : Run.bind _ _ _ = _ := h
        unfold Run.bind Run.lift at h
        simp at h
      · rintro ⟨h1, h2, h3⟩
        rcases qs with _ | ⟨q, qs⟩
        · simp at h2
        · simp only [List.map_cons, List.cons.injEq] at h2
          have := h3 q (by simp)
          unfold Evaluated at this
          rw [h2.1, hf] at this
          cases this

theorem pc_slice {m : Nat} (xs : List (List (Fl K))) (h : ∀ x ∈ xs, x.length = m) (i : Nat) (x : List (Fl K)) (hi : xs[i]? = some x) :
    (xs.flatten.drop (i * m)).take m = x := by
  induction xs generalizing i with
  | nil => simp at hi
  | cons y xs ih =>
    have hy := h y (by simp)
    rcases i with _ | i
    · simp only [List.getElem?_cons_zero, Option.some.injEq] at hi
      subst hi
      rw [Nat.zero_mul, List.drop_zero, List.flatten_cons, List.take_left' hy]
    · rw [List.flatten_cons, show (i + 1) * m = m + i * m by ring, ← List.drop_drop, List.drop_left' hy]
      exact ih (fun x hx => h x (by simp [hx])) i (by simpa using hi)

theorem pc_flatten_length {m : Nat} (xs : List (List (Fl K))) (h : ∀ x ∈ xs, x.length = m) : xs.flatten.length = xs.length * m := by
  induction xs with
  | nil => simp
  | cons y xs ih =>
    rw [List.flatten_cons, List.length_append, h y (by simp), ih (fun x hx => h x (by simp [hx])), List.length_cons]
    ring

theorem pc_slices {nx nf : Nat} (qs : List (List (Fl K) × List (Fl K))) (h : ∀ q ∈ qs, q.1.length = nx ∧ q.2.length = nf) :
    slices nx nf (qs.map Prod.fst).flatten (qs.map Prod.snd).flatten qs.length = .ok qs := by
  have h1 : ∀ x ∈ qs.map Prod.fst, x.length = nx := by
    intro x hx
    obtain ⟨q, hq, rfl⟩ := List.mem_map.mp hx
    exact (h q hq).1
  have h2 : ∀ x ∈ qs.map Prod.snd, x.length = nf := by
    intro x hx
    obtain ⟨q, hq, rfl⟩ := List.mem_map.mp hx
    exact (h q hq).2
  unfold slices
  rw [if_pos (by rw [pc_flatten_length _ h1, pc_flatten_length _ h2]; simp)]
  congr 1
  refine List.ext_getElem? (fun i => ?_)
  by_cases hi : i < qs.length
  · rw [List.getElem?_map, List.getElem?_range hi, List.getElem?_eq_getElem hi, Option.map_some,
      pc_slice _ h1 i qs[i].1 (by simp [hi]), pc_slice _ h2 i qs[i].2 (by simp [hi])]
  · rw [List.getElem?_eq_none (by simpa using hi), List.getElem?_eq_none (by omega)]

theorem pc_evaluated {p : PopCtor.Prob K} {q : List (Fl K) × List (Fl K)} (h : Evaluated p q) :
    q.1.length = p.info.nx ∧ q.2.length = p.info.nf ∧ p.user q.1 = .ok q.2 := by
  unfold Evaluated Pop.probFitness at h
  by_cases h1 : q.1.length ≠ p.info.nx
  · rw [if_pos h1] at h; cases h
  rw [if_neg h1] at h
  rcases hu : p.user q.1 with x | f
  · rw [hu] at h; cases h
  · rw [hu] at h
    simp only at h
    by_cases h2 : f.length ≠ p.info.nf
    · rw [if_pos h2] at h; cases h
    · rw [if_neg h2] at h
      cases h
      exact ⟨not_not.mp h1, not_not.mp h2, rfl⟩

/-- the individuals are appended in order and the IDs taken in order -/
theorem pc_pushAll {sq : Fl K → Fl K} {p : PopCtor.Prob K} (hnx : 0 < p.info.nx) (hnobj : 0 < p.info.nobj)
    (qs : List (List (Fl K) × List (Fl K))) (hq : ∀ q ∈ qs, q.1.length = p.info.nx ∧ q.2.length = p.info.nf) (s : Pop.State K)
    (hi : Inv p.info s) (hf : s.faults = []) (hn : s.id.length + qs.length < 2 ^ 64) :
    ∃ s', pushAll sq p qs s = (.ok (), s') ∧ s'.x = s.x ++ qs.map Prod.fst ∧ s'.f = s.f ++ qs.map Prod.snd ∧
      s'.id = s.id ++ (List.range qs.length).map s.rng := by
  induction qs generalizing s with
  | nil => exact ⟨s, rfl, by simp, by simp, by simp⟩
  | cons q qs ih =>
    rw [List.length_cons] at hn
    have hw : Run.wp (Pop.pushBackImpl sq p.info q.1 q.2) (fun _ s1 => Inv p.info s1 ∧ s1.faults = [] ∧ s1.id = s.id ++ [s.rng 0] ∧
        s1.x = s.x ++ [q.1] ∧ s1.f = s.f ++ [q.2] ∧ ∀ n, s1.rng n = s.rng (n + 1)) (fun _ _ => False) s := by
      refine Pop.wp_pushBackImpl hnx hnobj hi.tol hi.ch hi.wf.xs hi.wf.fs ?_ ?_ ?_ ?_
      · intro hx hff _ t ht c hc
        refine ⟨⟨⟨?_, ?_, ?_, ?_⟩, chOk_step hi.ch hx hff hc, hi.tol⟩, ht hf, rfl, rfl, rfl, fun _ => rfl⟩
        · simp [hi.wf.xs]
        · simp [hi.wf.fs]
        · intro v hv
          simp only [List.mem_append, List.mem_singleton] at hv
          rcases hv with hv | rfl
          · exact hi.wf.dimX v hv
          · exact hx
        · intro v hv
          simp only [List.mem_append, List.mem_singleton] at hv
          rcases hv with hv | rfl
          · exact hi.wf.dimF v hv
          · exact hff
      · intro h
        have := hq q (by simp)
        rcases h with h | h
        · exact h this.1
        · exact h this.2
      · intro h; omega
      · intro h; exact (h hf).elim
    rw [Run.wp_iff_exists] at hw
    rcases hw with ⟨a, s1, hr, h1, h2, h3, h4, h5, h6⟩ | ⟨x, s1, hr, h⟩
    swap
    · exact h.elim
    obtain ⟨s', k1, k2, k3, k4⟩ := ih (fun q' hq' => hq q' (List.mem_cons_of_mem _ hq')) s1 h1 h2 (by rw [h3, List.length_append]; simp; omega)
    refine ⟨s', ?_, ?_, ?_, ?_⟩
    · unfold pushAll
      rw [pc_bind hr, k1]
    · rw [k2, h4]; simp
    · rw [k3, h5]; simp
    · rw [k4, h3, List.length_cons, List.range_succ_eq_map]
      simp only [List.map_cons, List.map_map, List.append_assoc, List.singleton_append]
      congr 2
      exact List.map_congr_left (fun i _ => h6 i)

theorem pc_fromProblem_ok {sq : Fl K → Fl K} {ids : σ → Nat → Nat} {p : PopCtor.Prob K} {n : Nat} {e : σ} {s : Pop.State K} :
    fromProblem g op sq ids p n e = .ok s ↔ ∃ qs e', drawLoop g op p n e = (.ok qs, e') ∧ finish sq p ids qs e' = .ok s := by
  unfold fromProblem
  rcases drawLoop g op p n e with ⟨r | r | _ | _, e2⟩ <;> simp

theorem pc_fromBfe_ok {sq : Fl K → Fl K} {ids : σ → Nat → Nat} {p : PopCtor.Prob K} {b : List (Fl K) → Outcome (List (Fl K))} {n : Nat} {e : σ}
    {s : Pop.State K} :
    fromBfe g op sq ids p b n e = .ok s ↔ ∃ dvs e' fvs qs, batchRandomDecisionVector g op p.lb p.ub p.nix n e = (.ok dvs, e') ∧ b dvs = .ok fvs ∧
      slices p.info.nx p.info.nf dvs fvs n = .ok qs ∧ finish sq p ids qs e' = .ok s := by
  unfold fromBfe
  rcases batchRandomDecisionVector g op p.lb p.ub p.nix n e with ⟨dvs | r | _ | _, e2⟩
  · simp only [Prod.mk.injEq, Outcome.ok.injEq]
    constructor
    · intro h
      rcases hb : b dvs with fvs | _ | _ | _ <;> rw [hb] at h
      · rw [Outcome.bind_ok] at h
        rcases hq : slices p.info.nx p.info.nf dvs fvs n with qs | _ | _ | _ <;> rw [hq] at h
        · exact ⟨dvs, e2, fvs, qs, ⟨rfl, rfl⟩, hb, hq, h⟩
        all_goals cases h
      all_goals cases h
    · rintro ⟨_, _, fvs, qs, ⟨rfl, rfl⟩, hb, hq, h⟩
      rw [hb, Outcome.bind_ok, hq, Outcome.bind_ok, h]
  all_goals simp

/-! ## The properties -/

/-- The evaluator gives the fitness vectors one after the other for a batch of `n` decision vectors if each of them can be evaluated, and does
not return otherwise. -/
def OneByOne (p : PopCtor.Prob K) (n : Nat) (b : List (Fl K) → Outcome (List (Fl K))) : Prop :=
  ∀ xs : List (List (Fl K)), xs.length = n → (∀ x ∈ xs, x.length = p.info.nx) → ∀ out : List (Fl K),
    b xs.flatten = .ok out ↔ ∃ fs : List (List (Fl K)), xs.map p.user = fs.map .ok ∧ (∀ f ∈ fs, f.length = p.info.nf) ∧ out = fs.flatten

variable {rep : K → Prop}

/-- C156 (the same population). For every engine and seed, every problem with proper bounds and every number of individuals but zero, the
constructor that uses a batch evaluator gives a population exactly if the one that evaluates the individuals one by one does, and it is the same
one: decision vectors, fitness vectors, IDs, champion. -/
theorem C156_same (hg : g.Lawful rep) (sq : Fl K → Fl K) (ids : σ → Nat → Nat) (p : PopCtor.Prob K) (hs : SaneBounds p.lb p.ub p.nix)
    (hr : Reps rep p.lb p.ub) (hx : p.lb.length = p.info.nx) (n : Nat) (hn : 0 < n) (hsz : n * p.lb.length < 2 ^ 64)
    (b : List (Fl K) → Outcome (List (Fl K))) (hb : OneByOne p n b) (e : σ) (s : Pop.State K) :
    fromBfe g op sq ids p b n e = .ok s ↔ fromProblem g op sq ids p n e = .ok s := by
  by_cases hd : ∀ i < p.lb.length, Drawable op p.lb p.ub p.nix i
  swap
  · constructor
    · rw [pc_fromBfe_ok]
      rintro ⟨dvs, e', fvs, qs, h, -⟩
      have := C47_batch (op := op) hg p.lb p.ub p.nix n hs hr e
      unfold Run.wp at this
      rw [h] at this
      exact (hd this.2.2.2).elim
    · rw [pc_fromProblem_ok]
      rintro ⟨qs, e', h, -⟩
      obtain ⟨m, rfl⟩ : ∃ m, n = m + 1 := ⟨n - 1, by omega⟩
      have := C46_random_decision_vector (op := op) hg p.lb p.ub p.nix hs hr e
      unfold Run.wp at this
      unfold drawLoop at h
      replace h : Run.bind _ _ _ = _ := h
      unfold Run.bind at h
      rcases hv : randomDecisionVector g op p.lb p.ub p.nix e with ⟨v | v | _ | _, e2⟩
      · rw [hv] at this
        exact (hd this.2).elim
      all_goals
        rw [hv] at h
        simp at h
  have hlen : ∀ x ∈ (pcVecs g p.lb p.ub p.nix n e).1, x.length = p.info.nx := by
    intro x hx'
    obtain ⟨e', rfl⟩ := pcVecs_mem hx'
    rw [pcVec_length, hx]
  have key : ∀ qs : List (List (Fl K) × List (Fl K)), qs.map Prod.fst = (pcVecs g p.lb p.ub p.nix n e).1 → (∀ q ∈ qs, Evaluated p q) →
      b (pcVecs g p.lb p.ub p.nix n e).1.flatten = .ok (qs.map Prod.snd).flatten ∧
      slices p.info.nx p.info.nf (pcVecs g p.lb p.ub p.nix n e).1.flatten (qs.map Prod.snd).flatten n = .ok qs := by
    intro qs h1 h2
    constructor
    · rw [hb _ (pcVecs_length _ _ _ _ _) hlen]
      refine ⟨qs.map Prod.snd, ?_, ?_, rfl⟩
      · rw [← h1, List.map_map, List.map_map]
        exact List.map_congr_left (fun q hq => (pc_evaluated (h2 q hq)).2.2)
      · intro f hf
        obtain ⟨q, hq, rfl⟩ := List.mem_map.mp hf
        exact (pc_evaluated (h2 q hq)).2.1
    · have := pc_slices (nx := p.info.nx) (nf := p.info.nf) qs (fun q hq => ⟨(pc_evaluated (h2 q hq)).1, (pc_evaluated (h2 q hq)).2.1⟩)
      rwa [h1, show qs.length = n by rw [← pcVecs_length (g := g) p.lb p.ub p.nix n e, ← h1, List.length_map]] at this
  rw [pc_fromBfe_ok, pc_fromProblem_ok]
  constructor
  · rintro ⟨dvs, e', fvs, qs, h1, h2, h3, h4⟩
    rw [pc_batch hs hd hsz] at h1
    cases h1
    obtain ⟨fs, k1, k2, rfl⟩ := (hb _ (pcVecs_length _ _ _ _ _) hlen _).mp h2
    have kl : (pcVecs g p.lb p.ub p.nix n e).1.length = fs.length := by simpa using congrArg List.length k1
    have ez : ((pcVecs g p.lb p.ub p.nix n e).1.zip fs).map Prod.fst = (pcVecs g p.lb p.ub p.nix n e).1 := List.map_fst_zip (by omega)
    have ez' : ((pcVecs g p.lb p.ub p.nix n e).1.zip fs).map Prod.snd = fs := List.map_snd_zip (by omega)
    have hE : ∀ q ∈ (pcVecs g p.lb p.ub p.nix n e).1.zip fs, Evaluated p q := by
      intro q hq
      have hq1 := (List.of_mem_zip (show (q.1, q.2) ∈ _ from hq)).1
      have hq2 := (List.of_mem_zip (show (q.1, q.2) ∈ _ from hq)).2
      have hu : p.user q.1 = .ok q.2 := by
        obtain ⟨i, hi⟩ := List.mem_iff_getElem?.mp hq
        rw [List.getElem?_zip_eq_some] at hi
        have := congrArg (fun l => l[i]?) k1
        simp only [List.getElem?_map, hi.1, hi.2, Option.map_some, Option.some.injEq] at this
        exact this
      unfold Evaluated Pop.probFitness
      rw [if_neg (not_not.mpr (hlen _ hq1)), hu]
      simp only
      rw [if_neg (not_not.mpr (k2 _ hq2))]
    obtain ⟨-, k4⟩ := key _ ez hE
    rw [ez', h3] at k4
    cases k4
    exact ⟨_, _, (pc_drawLoop hs hd n e _ _).mpr ⟨rfl, ez, hE⟩, h4⟩
  · rintro ⟨qs, e', h1, h2⟩
    obtain ⟨rfl, h3, h4⟩ := (pc_drawLoop hs hd n e _ _).mp h1
    obtain ⟨k1, k2⟩ := key qs h3 h4
    exact ⟨_, _, _, qs, pc_batch hs hd hsz e, k1, k2, h2⟩

/-- C156 (threads). The evaluator that uses several threads evaluates one by one in this sense, for every partition of the work and every
interleaving in which the threads end. -/
theorem C156_threads (p : PopCtor.Prob K) (hnx : 0 < p.info.nx) (hnf : 0 < p.info.nf) (safety : Bfe.Safety) (hsafe : safety ≠ .none) (n : Nat)
    (hov : n * p.info.nf < 2 ^ 64) (zero : Fl K) (rs : List (Nat × Nat)) (hp : Partition n rs) (sched : List Nat)
    (hfair : ∀ (i : Nat) (r : Nat × Nat), rs[i]? = some r → (r.2 - r.1) * (p.info.nf + 1) ≤ sched.count i) :
    OneByOne p n (fun dvs => Bfe.bfeThread ⟨p.info.nx, p.info.nf, safety, p.user⟩ dvs zero rs sched) := by
  intro xs hl hxs out
  have hd : xs.flatten.length = n * p.info.nx := by rw [pc_flatten_length xs hxs, hl]
  obtain ⟨c1, c2, c3, c4⟩ := C21_threads ⟨p.info.nx, p.info.nf, safety, p.user⟩ hnx hnf hsafe xs.flatten n hd hov zero rs hp sched
  have hdv : ∀ i < n, ∃ x, xs[i]? = some x ∧ dvAt p.info.nx xs.flatten i = x := by
    intro i hi
    refine ⟨xs[i]'(by omega), List.getElem?_eq_getElem (by omega), ?_⟩
    exact pc_slice xs hxs i _ (List.getElem?_eq_getElem (by omega))
  have uniq : ∀ (F : Nat → List (Fl K)) (fs : List (List (Fl K))), xs.map p.user = fs.map .ok →
      (∀ i < n, p.user (dvAt p.info.nx xs.flatten i) = .ok (F i)) → (List.range n).map F = fs := by
    intro F fs k1 k2
    have kl : xs.length = fs.length := by simpa using congrArg List.length k1
    refine List.ext_getElem? (fun i => ?_)
    by_cases hi : i < n
    · obtain ⟨x, e1, e2⟩ := hdv i hi
      have k3 := k2 i hi
      rw [e2] at k3
      have := congrArg (fun l => l[i]?) k1
      simp only [List.getElem?_map, e1, Option.map_some, List.getElem?_eq_getElem (show i < fs.length by omega), Option.some.injEq, k3, Except.ok.injEq] at this
      rw [List.getElem?_map, List.getElem?_range hi, List.getElem?_eq_getElem (show i < fs.length by omega), Option.map_some, this]
    · rw [List.getElem?_eq_none (by simpa using hi), List.getElem?_eq_none (by omega)]
  constructor
  · intro h
    obtain ⟨F, k1, k2⟩ := c2 out h
    refine ⟨(List.range n).map F, ?_, ?_, ?_⟩
    · refine List.ext_getElem? (fun i => ?_)
      by_cases hi : i < n
      · obtain ⟨x, e1, e2⟩ := hdv i hi
        have k3 := (k1 i hi).1
        simp only [e2] at k3
        simp [e1, hi, k3]
      · rw [List.getElem?_eq_none (by simp; omega), List.getElem?_eq_none (by simpa using hi)]
    · intro f hf
      obtain ⟨i, hi, rfl⟩ := List.mem_map.mp hf
      exact (k1 i (List.mem_range.mp hi)).2
    · rw [k2, List.flatMap_def]
  · rintro ⟨fs, k1, k2, rfl⟩
    have kl : xs.length = fs.length := by simpa using congrArg List.length k1
    have each : ∀ i < n, ∃ f, p.user (dvAt p.info.nx xs.flatten i) = .ok f ∧ f.length = p.info.nf := by
      intro i hi
      obtain ⟨x, e1, e2⟩ := hdv i hi
      have := congrArg (fun l => l[i]?) k1
      simp only [List.getElem?_map, e1, Option.map_some, List.getElem?_eq_getElem (show i < fs.length by omega), Option.some.injEq] at this
      exact ⟨fs[i], by rw [e2, this], k2 _ (List.getElem_mem _)⟩
    rcases hres : Bfe.bfeThread ⟨p.info.nx, p.info.nf, safety, p.user⟩ xs.flatten zero rs sched with o | x | _ | _
    · obtain ⟨F, m1, m2⟩ := c2 o hres
      show Bfe.bfeThread _ _ _ _ _ = _
      rw [hres, m2, List.flatMap_def, uniq F fs k1 (fun i hi => (m1 i hi).1)]
    · obtain ⟨i, hi, h⟩ := c3 x hres
      obtain ⟨f, f1, f2⟩ := each i hi
      rcases h with h | ⟨-, f', h, h'⟩
      · replace h : p.user (dvAt p.info.nx xs.flatten i) = .error x := h
        rw [f1] at h; cases h
      · replace h : p.user (dvAt p.info.nx xs.flatten i) = .ok f' := h
        rw [f1] at h; cases h; exact (h' f2).elim
    · exact (c1 hres).elim
    · exact (c4 hfair hres).elim

/-- C156 (the individuals). If the bounds can be drawn from and the fitness of each vector inside them can be computed, the constructor gives
a population of `n` individuals: each decision vector is inside the bounds, integer where it must be, beside it is its fitness, and the IDs are
the next `n` numbers of the engine after all the decision vectors were drawn. -/
theorem C156_members (hg : g.Lawful rep) (sq : Fl K → Fl K) (ids : σ → Nat → Nat) (p : PopCtor.Prob K) (hs : SaneBounds p.lb p.ub p.nix)
    (hr : Reps rep p.lb p.ub) (hx : p.lb.length = p.info.nx) (hnobj : 0 < p.info.nobj) (htol : p.tol.length = p.info.nc)
    (hd : ∀ i < p.lb.length, Drawable op p.lb p.ub p.nix i)
    (hu : ∀ x, InBox p.lb p.ub p.nix x → ∃ f, p.user x = .ok f ∧ f.length = p.info.nf) (n : Nat) (hn : n < 2 ^ 64) (e : σ) :
    ∃ s e', fromProblem g op sq ids p n e = .ok s ∧ s.x.length = n ∧ s.f.length = n ∧ s.id = (List.range n).map (ids e') ∧
      ∀ (i : Nat) (x f : List (Fl K)), s.x[i]? = some x → s.f[i]? = some f → InBox p.lb p.ub p.nix x ∧ p.user x = .ok f := by
  have hnx : 0 < p.info.nx := by rw [← hx]; exact List.length_pos_iff.mpr hs.nonempty
  have hbox : ∀ x ∈ (pcVecs g p.lb p.ub p.nix n e).1, InBox p.lb p.ub p.nix x := by
    intro x hx'
    obtain ⟨e', rfl⟩ := pcVecs_mem hx'
    have := C46_random_decision_vector (op := op) hg p.lb p.ub p.nix hs hr e'
    unfold Run.wp at this
    rw [pc_vec hs hd e'] at this
    exact this.1
  let fit : List (Fl K) → List (Fl K) := fun x => match p.user x with | .ok f => f | .error _ => []
  have hfit : ∀ x ∈ (pcVecs g p.lb p.ub p.nix n e).1, p.user x = .ok (fit x) ∧ (fit x).length = p.info.nf := by
    intro x hx'
    obtain ⟨f, f1, f2⟩ := hu x (hbox x hx')
    have : fit x = f := by show (match p.user x with | .ok f => f | .error _ => []) = f; rw [f1]
    rw [this]
    exact ⟨f1, f2⟩
  let qs := (pcVecs g p.lb p.ub p.nix n e).1.map (fun x => (x, fit x))
  have q1 : qs.map Prod.fst = (pcVecs g p.lb p.ub p.nix n e).1 := by simp [qs, Function.comp_def]
  have q2 : qs.map Prod.snd = (pcVecs g p.lb p.ub p.nix n e).1.map fit := by simp [qs, Function.comp_def]
  have qE : ∀ q ∈ qs, Evaluated p q := by
    intro q hq
    obtain ⟨x, hx', rfl⟩ := List.mem_map.mp hq
    unfold Evaluated Pop.probFitness
    rw [if_neg (not_not.mpr ((hbox x hx').1.trans hx)), (hfit x hx').1]
    simp only
    rw [if_neg (not_not.mpr (hfit x hx').2)]
  have ql : qs.length = n := by simp [qs, pcVecs_length]
  have hdraw := (pc_drawLoop (g := g) (op := op) hs hd n e _ qs).mpr ⟨rfl, q1, qE⟩
  obtain ⟨s', k1, k2, k3, k4⟩ := pc_pushAll (sq := sq) hnx hnobj qs (fun q hq => ⟨(pc_evaluated (qE q hq)).1, (pc_evaluated (qE q hq)).2.1⟩)
    (Pop.empty p.tol (ids (pcVecs g p.lb p.ub p.nix n e).2) []) (inv_empty htol _ _) rfl (by simpa [Pop.empty, ql] using hn)
  rw [ql] at k4
  simp only [Pop.empty, List.nil_append] at k2 k3 k4
  refine ⟨s', _, pc_fromProblem_ok.mpr ⟨qs, _, hdraw, ?_⟩, ?_, ?_, k4, ?_⟩
  · unfold finish
    rw [k1]
  · rw [k2, List.length_map, ql]
  · rw [k3, List.length_map, ql]
  · intro i x f h1 h2
    rw [k2, q1] at h1
    rw [k3, q2, List.getElem?_map, h1, Option.map_some, Option.some.injEq] at h2
    subst h2
    exact ⟨hbox x (List.mem_of_getElem? h1), (hfit x (List.mem_of_getElem? h1)).1⟩

/-- C156 (no individuals). Where the two constructors differ: with no individuals at all, the one without an evaluator gives a population with
none for every problem, the one with an evaluator throws `std::invalid_argument` if the bounds cannot be drawn from (for example one is
infinite), although nothing is to be drawn. -/
theorem C156_empty (hg : g.Lawful rep) (sq : Fl K → Fl K) (ids : σ → Nat → Nat) (p : PopCtor.Prob K) (hs : SaneBounds p.lb p.ub p.nix)
    (hr : Reps rep p.lb p.ub) (hd : ¬ ∀ i < p.lb.length, Drawable op p.lb p.ub p.nix i) (b : List (Fl K) → Outcome (List (Fl K))) (e : σ) :
    (∃ s, fromProblem g op sq ids p 0 e = .ok s ∧ s.x = [] ∧ s.f = [] ∧ s.id = []) ∧
    fromBfe g op sq ids p b 0 e = .throws .invalidArgument := by
  refine ⟨⟨_, rfl, rfl, rfl, rfl⟩, ?_⟩
  have := C47_batch (op := op) hg p.lb p.ub p.nix 0 hs hr e
  unfold Run.wp at this
  unfold fromBfe
  rcases hv : batchRandomDecisionVector g op p.lb p.ub p.nix 0 e with ⟨v | x | _ | _, e2⟩ <;> rw [hv] at this
  · exact (hd this.2.2.2).elim
  · rcases this with ⟨-, h⟩ | ⟨rfl, -⟩
    · simp at h
    · rfl
  all_goals exact this.elim

/-! ## Concrete cases -/

/-- one continuous and one integer variable, the sum as objective -/
def demoCtor : PopCtor.Prob ℚ where
  info := ⟨2, 1, 0, 0, false⟩
  lb := [.fin 0, .fin 1]
  ub := [.fin 2, .fin 5]
  nix := 1
  tol := []
  user x := .ok [(Fl.exact ℚ).add (x.getD 0 (.fin 0)) (x.getD 1 (.fin 0))]

/-- what a user sees of the population -/
def ctorView (o : Outcome (Pop.State ℚ)) : Outcome (List (List (Fl ℚ)) × List (List (Fl ℚ)) × List Nat × List (Fl ℚ)) := do
  let s ← o
  .ok (s.x, s.f, s.id, s.chX)

example : SaneBounds demoCtor.lb demoCtor.ub demoCtor.nix := (C19_bounds _ _ _).1.mp (by decide +kernel)

example : Reps (fun _ : ℚ => True) demoCtor.lb demoCtor.ub := fun _ _ => trivial

/-- two individuals: the first is `(1/2, 5)` with objective `11/2`, the second `(1, 1)` with `2`, which is the champion -/
example : ctorView (fromProblem demoGen (Fl.exact ℚ) (fun x => x) (fun e i => e.length + 7 + i) demoCtor 2 [1 / 4, 3 / 4, 1 / 2, 0]) =
    .ok ([[.fin (1 / 2), .fin 5], [.fin 1, .fin 1]], [[.fin (11 / 2)], [.fin 2]], [7, 8], [.fin 1, .fin 1]) := by decide +kernel

theorem demoCtor_drawable : ∀ i < demoCtor.lb.length, Drawable (Fl.exact ℚ) demoCtor.lb demoCtor.ub demoCtor.nix i := by
  intro i hi l u h1 h2
  have hi : i < 2 := hi
  have h : i = 0 ∨ i = 1 := by omega
  rcases h with rfl | rfl
  · cases h1; cases h2
    refine ⟨rfl, rfl, fun _ => rfl, fun h => ?_⟩
    simp [demoCtor] at h
  · cases h1; cases h2
    refine ⟨rfl, rfl, fun _ => rfl, fun _ z h => ?_⟩
    simp only [Fl.fin.injEq] at h
    rcases h with h | h
    · have : z = 1 := by exact_mod_cast h.symm
      omega
    · have : z = 5 := by exact_mod_cast h.symm
      omega

/-- the hypotheses of `C156_members` are met, whatever the numbers drawn -/
example (n : Nat) (hn : n < 2 ^ 64) (e : List ℚ) : ∃ s, fromProblem demoGen (Fl.exact ℚ) (fun x => x) (fun e i => e.length + i) demoCtor n e = .ok s ∧
    s.x.length = n := by
  obtain ⟨s, e', h, hl, -⟩ := C156_members (op := Fl.exact ℚ) demoGen_lawful (fun x => x) (fun e i => e.length + i) demoCtor
    ((C19_bounds _ _ _).1.mp (by decide +kernel)) (fun _ _ => trivial) rfl (by decide) rfl demoCtor_drawable (fun x _ => ⟨_, rfl, rfl⟩) n hn e
  exact ⟨s, h, hl⟩

/-- the same with two threads -/
example : ctorView (fromBfe demoGen (Fl.exact ℚ) (fun x => x) (fun e i => e.length + 7 + i) demoCtor
    (fun dvs => Bfe.bfeThread ⟨2, 1, .basic, demoCtor.user⟩ dvs (.fin 0) [(1, 2), (0, 1)] [0, 1, 1, 0]) 2 [1 / 4, 3 / 4, 1 / 2, 0]) =
    .ok ([[.fin (1 / 2), .fin 5], [.fin 1, .fin 1]], [[.fin (11 / 2)], [.fin 2]], [7, 8], [.fin 1, .fin 1]) := by decide +kernel

/-- an unbounded variable -/
def demoCtorUnbounded : PopCtor.Prob ℚ := { demoCtor with ub := [.pinf, .fin 5] }

example : ctorView (fromBfe demoGen (Fl.exact ℚ) (fun x => x) (fun e i => e.length + i) demoCtorUnbounded (fun _ => .ok []) 0 []) =
    .throws .invalidArgument := by decide +kernel

end Verif.Props
