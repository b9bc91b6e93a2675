/-
Small lemmas on the error monad `C` and on loops that read a buffer.
-/
import Verif.Model.Mem
import Mathlib.Data.List.Basic

namespace Verif
variable {α β γ : Type}

@[simp] theorem C.ok_bind (a : β) (f : β → C γ) : (Except.ok a >>= f : C γ) = f a := rfl
@[simp] theorem C.error_bind (e : UB) (f : β → C γ) : (Except.error e >>= f : C γ) = .error e := rfl
@[simp] theorem C.pure_eq (a : β) : (pure a : C β) = .ok a := rfl

theorem C.bind_ok {x : C β} {f : β → C γ} {r : γ} (h : (x >>= f) = .ok r) :
    ∃ b, x = .ok b ∧ f b = .ok r := by
  cases x with
  | error e => simp at h
  | ok b => exact ⟨b, rfl, h⟩

theorem C.bind_error {x : C β} {f : β → C γ} {e : UB} (h : (x >>= f) = .error e) :
    x = .error e ∨ ∃ b, x = .ok b ∧ f b = .error e := by
  cases x with
  | error e' => left; simpa using h
  | ok b => exact .inr ⟨b, rfl, h⟩

/-- A loop reading cells `0 .. n-1` that hold the list `l` is a fold over `l`. -/
theorem foldlM_read {f : β → α → C β} {rd : ℕ → C α} (l : List α) (off : ℕ) (init : β)
    (h : ∀ i (hi : i < l.length), rd (off + i) = .ok l[i]) :
    (List.range' off l.length).foldlM (fun acc i => do let v ← rd i; f acc v) init = l.foldlM f init := by
  induction l generalizing off init with
  | nil => rfl
  | cons x xs ih =>
    have h0 : rd off = .ok x := h 0 (by simp)
    rw [List.length_cons, List.range'_succ, List.foldlM_cons, List.foldlM_cons, h0, C.ok_bind]
    cases f init x with
    | error e => rfl
    | ok b =>
      rw [C.ok_bind, C.ok_bind]
      refine ih (off + 1) b ?_
      intro i hi
      have := h (i + 1) (by simpa using hi)
      rw [show off + 1 + i = off + (i + 1) by omega, this]; rfl

theorem foldlM_read' {f : β → α → C β} {rd : ℕ → C α} (l : List α) (n : ℕ) (init : β) (hn : n = l.length)
    (h : ∀ i (hi : i < l.length), rd i = .ok l[i]) :
    (List.range n).foldlM (fun acc i => do let v ← rd i; f acc v) init = l.foldlM f init := by
  subst hn
  rw [List.range_eq_range']
  exact foldlM_read l 0 init (by simpa using h)

theorem foldlM_ok (f : β → α → β) (l : List α) (init : β) :
    l.foldlM (fun acc v => (.ok (f acc v) : C β)) init = .ok (l.foldl f init) := by
  induction l generalizing init with
  | nil => rfl
  | cons x xs ih => rw [List.foldlM_cons, C.ok_bind, ih]; rfl

end Verif
