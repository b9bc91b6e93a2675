/-
The estimators only see the stored values: evaluation of the reading loops.
-/
import Verif.Model.Tail
import Verif.Proofs.Monad

namespace Verif
variable {α : Type} [CDouble α]

/-- The container holds, in slot order, the list `l`. -/
structure Stored (h : Heap α) (u : Ubend α) (l : List α) : Prop where
  size : (ubend_size u).toNat = l.length
  read : ∀ i (hi : i < l.length), load h u.data i = .ok l[i]

variable {M : MathFns α} {h : Heap α} {p : Peaks α} {l : List α}

/-- value of `log_likelihood` on a stored list -/
def logLikL (M : MathFns α) (e : α) (l : List α) (gamma sigma : α) : α :=
  if gamma ==. lit 0 then (-. lit l.length) *. M.log sigma -. e /. sigma
  else
    l.foldl (fun r v => r +. (-. (lit 1 +. lit 1 /. gamma)) *. M.log (lit 1 +. gamma /. sigma *. v))
      ((-. lit l.length) *. M.log sigma)

theorem log_likelihood_eq (H : Stored h p.container l) (gamma sigma : α) :
    log_likelihood M h p gamma sigma = .ok (logLikL M p.e l gamma sigma) := by
  unfold log_likelihood logLikL
  simp only [H.size]
  split
  · rfl
  · rw [foldlM_read' l _ _ rfl H.read, foldlM_ok]

def grimshawWL (M : MathFns α) (l : List α) (x : α) : α :=
  let uv := l.foldl (fun (uv : α × α) y => (uv.1 +. lit 1 /. (lit 1 +. x *. y), uv.2 +. M.log (lit 1 +. x *. y)))
    (lit 0, lit 0)
  (uv.1 /. lit l.length) *. (lit 1 +. uv.2 /. lit l.length) -. lit 1

theorem grimshaw_w_eq (H : Stored h p.container l) (x : α) :
    grimshaw_w M h p x = .ok (grimshawWL M l x) := by
  unfold grimshaw_w grimshawWL peaks_size
  simp only [H.size]
  rw [foldlM_read' l _ _ rfl H.read, foldlM_ok]
  rfl

def grimshawVL (M : MathFns α) (l : List α) (x : α) : α :=
  lit 1 +. (l.foldl (fun v y => v +. M.log (lit 1 +. x *. y)) (lit 0)) /. lit l.length

theorem grimshaw_v_eq (H : Stored h p.container l) (x : α) :
    grimshaw_v M h p x = .ok (grimshawVL M l x) := by
  unfold grimshaw_v grimshawVL peaks_size
  simp only [H.size]
  rw [foldlM_read' l _ _ rfl H.read, foldlM_ok]
  rfl

def meanL (e : α) (l : List α) : α := e /. lit l.length
def varL (e e2 : α) (l : List α) : α := e2 /. lit l.length -. (e /. lit l.length) *. (e /. lit l.length)

theorem peaks_mean_eq (H : Stored h p.container l) : peaks_mean p = meanL p.e l := by
  unfold peaks_mean meanL peaks_size; rw [H.size]

theorem peaks_var_eq (H : Stored h p.container l) : peaks_var p = varL p.e p.e2 l := by
  unfold peaks_var varL peaks_size; simp only [H.size]

def momL (M : MathFns α) (e e2 : α) (l : List α) : Est α :=
  let R := meanL e l *. meanL e l /. varL e e2 l
  let gamma := lit (1 / 2) *. (lit 1 -. R)
  let sigma := lit (1 / 2) *. meanL e l *. (lit 1 +. R)
  ⟨logLikL M e l gamma sigma, gamma, sigma⟩

theorem mom_eq (H : Stored h p.container l) : mom_estimator M h p = .ok (momL M p.e p.e2 l) := by
  unfold mom_estimator momL
  simp only [peaks_mean_eq H, peaks_var_eq H, log_likelihood_eq H, C.ok_bind]

def simplifiedL (M : MathFns α) (e : α) (l : List α) (x : α) : Est α :=
  if x ==. lit 0 then ⟨logLikL M e l (lit 0) (meanL e l), lit 0, meanL e l⟩
  else
    let gamma := grimshawVL M l x -. lit 1
    ⟨logLikL M e l gamma (gamma /. x), gamma, gamma /. x⟩

theorem simplified_eq (H : Stored h p.container l) (x : α) :
    grimshaw_simplified_log_likelihood M h p x = .ok (simplifiedL M p.e l x) := by
  unfold grimshaw_simplified_log_likelihood simplifiedL
  split
  · simp only [log_likelihood_eq H, peaks_mean_eq H, C.ok_bind]
  · simp only [log_likelihood_eq H, grimshaw_v_eq H, C.ok_bind]

/-! ### brent on a total function -/

def brentLoopP (f : α → α) (tol : α) : ℕ → BrentSt α → Bool × α
  | 0, _ => (false, lit 0)
  | fuel + 1, s =>
    let s := brentAdjust s
    if brentDone tol s then (true, s.b)
    else
      let de := brentDE tol s
      let b' := brentNext tol s de.1
      brentLoopP f tol fuel { s with a := s.b, fa := s.fb, d := de.1, e := de.2, b := b', fb := f b' }

def brentP (f : α → α) (x1 x2 tol : α) : Bool × α :=
  if sameSign (f x1) (f x2) then (false, lit 0)
  else brentLoopP f tol BRENT_ITMAX ⟨x1, x2, x2, lit 0, lit 0, f x1, f x2, f x2⟩

theorem brentLoop_eq {func : α → C α} {f : α → α} (hf : ∀ x, func x = .ok (f x)) (tol : α) (n : ℕ) (s : BrentSt α) :
    brentLoop func tol n s = .ok (brentLoopP f tol n s) := by
  induction n generalizing s with
  | zero => rfl
  | succ n ih =>
    unfold brentLoop brentLoopP
    simp only
    split
    · rfl
    · simp only [hf, C.ok_bind]; rw [ih]

theorem brent_eq {func : α → C α} {f : α → α} (hf : ∀ x, func x = .ok (f x)) (x1 x2 tol : α) :
    brent func x1 x2 tol = .ok (brentP f x1 x2 tol) := by
  unfold brent brentP
  simp only [hf, C.ok_bind, brentLoop_eq hf]
  split <;> rfl

def betterL (M : MathFns α) (e : α) (l : List α) (best : Est α) (root : Bool × α) : Est α :=
  if root.1 then
    if (simplifiedL M e l root.2).llhood >. best.llhood then simplifiedL M e l root.2 else best
  else best

theorem better_eq (H : Stored h p.container l) (best : Est α) (root : Bool × α) :
    grimshaw_better M h p best root = .ok (betterL M p.e l best root) := by
  unfold grimshaw_better betterL
  cases root.1
  · rfl
  · simp only [if_true, simplified_eq H, C.ok_bind]
    split <;> rfl

def rootsL (M : MathFns α) (e mini maxi : α) (l : List α) : (Bool × α) × (Bool × α) :=
  let eps := xmin BRENT_DEFAULT_EPSILON (lit (1 / 2) /. maxi)
  (brentP (grimshawWL M l) (lit (-1) /. maxi +. eps) (-. eps) BRENT_DEFAULT_EPSILON,
   brentP (grimshawWL M l) eps (lit 2 *. (meanL e l -. mini) /. (mini *. mini)) BRENT_DEFAULT_EPSILON)

def grimshawL (M : MathFns α) (e mini maxi : α) (l : List α) : Est α :=
  let r := rootsL M e mini maxi l
  betterL M e l (betterL M e l (simplifiedL M e l (lit 0)) r.1) r.2

theorem grimshaw_eq (H : Stored h p.container l) :
    grimshaw_estimator M h p = .ok (grimshawL M p.e p.min p.max l) := by
  unfold grimshaw_estimator grimshawL rootsL grimshaw_eps
  simp only [peaks_mean_eq H, brent_eq (grimshaw_w_eq H), simplified_eq H, better_eq H, C.ok_bind]

def tailFitL (M : MathFns α) (t : Tail α) (l : List α) : α × Tail α :=
  tail_fit_step (tail_fit_step (cNAN, t) (momL M t.peaks.e t.peaks.e2 l))
    (grimshawL M t.peaks.e t.peaks.min t.peaks.max l)

theorem tail_fit_eq {t : Tail α} (H : Stored h t.peaks.container l) :
    tail_fit M h t = .ok (tailFitL M t l) := by
  unfold tail_fit tailFitL
  simp only [mom_eq H, grimshaw_eq H, C.ok_bind]

theorem tail_fit_step_peaks (acc : α × Tail α) (est : Est α) : (tail_fit_step acc est).2.peaks = acc.2.peaks := by
  unfold tail_fit_step; split <;> rfl

theorem tailFitL_peaks (t : Tail α) : (tailFitL M t l).2.peaks = t.peaks := by
  unfold tailFitL; rw [tail_fit_step_peaks, tail_fit_step_peaks]

end Verif
