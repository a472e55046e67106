import Verif.Base.Run

/-!
# Code that need not terminate

`wpn N` is like `wp`, except that the code may run out of fuel if `N` holds. It is used for loops that end only if the
random numbers are favourable. `wpn False` is `wp`.
-/

set_option autoImplicit false

namespace Verif.Run

variable {σ α β : Type} {N : Prop}

/-- Started in `s`, the code ends normally with `Q`, or throws with `E`, or has used up its fuel and `N` holds; no
undefined behaviour. -/
def wpn (N : Prop) (m : Run σ α) (Q : α → σ → Prop) (E : Exn → σ → Prop) (s : σ) : Prop :=
  match m s with
  | (.ok a, s') => Q a s'
  | (.throws e, s') => E e s'
  | (.ub, _) => False
  | (.nofuel, _) => N

theorem wpn_of_wp {m : Run σ α} {Q : α → σ → Prop} {E : Exn → σ → Prop} {s : σ} (h : wp m Q E s) : wpn N m Q E s := by
  unfold wp at h
  unfold wpn
  rcases hm : m s with ⟨_ | _ | _ | _, s'⟩ <;> rw [hm] at h <;> first | exact h | exact False.elim h

theorem wpn_pure {a : α} {Q : α → σ → Prop} {E : Exn → σ → Prop} {s : σ} :
    wpn N (pure a : Run σ α) Q E s ↔ Q a s := Iff.rfl

theorem wpn_bind {m : Run σ α} {f : α → Run σ β} {Q : β → σ → Prop} {E : Exn → σ → Prop} {s : σ} :
    wpn N (m >>= f) Q E s ↔ wpn N m (fun a s' => wpn N (f a) Q E s') E s := by
  show wpn N (bind m f) Q E s ↔ _
  unfold wpn bind
  rcases m s with ⟨_ | _ | _ | _, s'⟩ <;> simp

theorem wpn_get {Q : σ → σ → Prop} {E : Exn → σ → Prop} {s : σ} :
    wpn N (get : Run σ σ) Q E s ↔ Q s s := Iff.rfl

theorem wpn_throw {e : Exn} {Q : α → σ → Prop} {E : Exn → σ → Prop} {s : σ} :
    wpn N (throw e : Run σ α) Q E s ↔ E e s := Iff.rfl

theorem wpn_nofuel (hN : N) {Q : α → σ → Prop} {E : Exn → σ → Prop} {s : σ} :
    wpn N (lift .nofuel : Run σ α) Q E s := hN

theorem wpn_lift_ok {a : α} {Q : α → σ → Prop} {E : Exn → σ → Prop} {s : σ} :
    wpn N (lift (.ok a)) Q E s ↔ Q a s := Iff.rfl

theorem wpn_lift_get {l : List α} {i : Nat} {Q : α → σ → Prop} {E : Exn → σ → Prop} {s : σ} (h : i < l.length) :
    wpn N (lift (Outcome.get l i)) Q E s ↔ Q l[i] s := by
  rw [Outcome.get_of_lt h]; exact wpn_lift_ok

theorem wpn_lift_set {l : List α} {i : Nat} {a : α} {Q : List α → σ → Prop} {E : Exn → σ → Prop} {s : σ}
    (h : i < l.length) : wpn N (lift (Outcome.set l i a)) Q E s ↔ Q (l.set i a) s := by
  rw [Outcome.set_of_lt h]; exact wpn_lift_ok

theorem wpn.mono {m : Run σ α} {Q Q' : α → σ → Prop} {E E' : Exn → σ → Prop} {s : σ} (h : wpn N m Q E s)
    (hq : ∀ a s, Q a s → Q' a s) (he : ∀ e s, E e s → E' e s) : wpn N m Q' E' s := by
  unfold wpn at *
  rcases hm : m s with ⟨_ | _ | _ | _, s'⟩ <;> rw [hm] at h
  · exact hq _ _ h
  · exact he _ _ h
  · exact h
  · exact h

theorem wpn.fuel {N' : Prop} {m : Run σ α} {Q : α → σ → Prop} {E : Exn → σ → Prop} {s : σ} (h : wpn N m Q E s) (hn : N → N') : wpn N' m Q E s := by
  unfold wpn at *
  rcases hm : m s with ⟨_ | _ | _ | _, s'⟩ <;> rw [hm] at h
  · exact h
  · exact h
  · exact h
  · exact hn h

/-- Loops over `0 … n - 1`. -/
theorem wpn_range {f : β → Nat → Run σ β} {E : Exn → σ → Prop} (Inv : Nat → β → σ → Prop) (n : Nat) (b : β) (s : σ)
    (h0 : Inv 0 b s)
    (hs : ∀ (i : Nat) (b : β) (s : σ), i < n → Inv i b s → wpn N (f b i) (fun b' s' => Inv (i + 1) b' s') E s) :
    wpn N ((List.range n).foldlM f b) (fun b' s' => Inv n b' s') E s := by
  have gen : ∀ (m k : Nat) (b : β) (s : σ), k + m = n → Inv k b s →
      wpn N ((List.range' k m).foldlM f b) (fun b' s' => Inv n b' s') E s := by
    intro m
    induction m with
    | zero => intro k b s hk h; rw [Nat.add_zero] at hk; subst hk; exact h
    | succ m ih =>
      intro k b s hk h
      rw [List.range'_succ, List.foldlM_cons, wpn_bind]
      exact (hs k b s (by omega) h).mono (fun b' s' h' => ih (k + 1) b' s' (by omega) h') (fun _ _ h => h)
  rw [List.range_eq_range']
  exact gen n 0 b s (by omega) h0

theorem wp_of_wpn {m : Run σ α} {Q : α → σ → Prop} {E : Exn → σ → Prop} {s : σ} (h : wpn False m Q E s) : wp m Q E s := by
  unfold wpn at h
  unfold wp
  rcases hm : m s with ⟨_ | _ | _ | _, s'⟩ <;> rw [hm] at h <;> exact h

end Verif.Run
