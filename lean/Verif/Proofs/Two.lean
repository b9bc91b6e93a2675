/-
Two detectors, release of the memory.
-/
import Verif.Proofs.Init

namespace Verif
variable {α : Type} [CDouble α] [CDoubleLaws α]
variable {M : MathFns α} {h : Heap α} {s1 s2 : Spot α} {a1 a2 c1 c2 : ℕ} {xs1 xs2 : List α}

omit [CDoubleLaws α] in
theorem SpotInv.of_frame {h h' : Heap α} {s : Spot α} {a b c c' : ℕ} {xs : List α} (I : SpotInv h s a c xs)
    (f : Frame h h' b c') (hab : a ≠ b) : SpotInv h' s a c xs := by
  refine ⟨?_, I.stats⟩
  have R := I.ring
  exact ⟨R.data, R.cap, R.pos, R.bound, by rw [f.1 a hab]; exact R.cells, R.cursor, R.filled, R.erased⟩

theorem two_of_pure (I1 : SpotInv h s1 a1 c1 xs1) (I2 : SpotInv h s2 a2 c2 xs2) (hne : a1 ≠ a2)
    (prog : List (Bool × Op α)) (hv : ∀ p ∈ prog, p.2.valid) {o1 o2 k1 k2 ys1 ys2}
    (r1 : runC M c1 s1.core xs1 (callsOf true prog) = .ok (o1, k1, ys1))
    (r2 : runC M c2 s2.core xs2 (callsOf false prog) = .ok (o2, k2, ys2)) :
    ∃ s1' s2' h', runTwo M h s1 s2 prog = .ok ((o1, o2), s1', s2', h') ∧ s1'.core = k1 ∧ s2'.core = k2 ∧
      SpotInv h' s1' a1 c1 ys1 ∧ SpotInv h' s2' a2 c2 ys2 := by
  induction prog generalizing h s1 s2 xs1 xs2 o1 o2 with
  | nil =>
    simp only [callsOf, List.filter_nil, List.map_nil, runC, Except.ok.injEq, Prod.mk.injEq] at r1 r2
    obtain ⟨rfl, rfl, rfl⟩ := r1
    obtain ⟨rfl, rfl, rfl⟩ := r2
    exact ⟨s1, s2, h, rfl, rfl, rfl, I1, I2⟩
  | cons p prog ih =>
    obtain ⟨b, op⟩ := p
    have hop : op.valid := hv (b, op) (by simp)
    have hv' : ∀ p ∈ prog, p.2.valid := fun p hp => hv p (by simp [hp])
    cases b with
    | true =>
      have e1 : callsOf true ((true, op) :: prog) = op :: callsOf true prog := by simp [callsOf]
      have e2 : callsOf false ((true, op) :: prog) = callsOf false prog := by simp [callsOf]
      rw [e1, runC] at r1
      rw [e2] at r2
      obtain ⟨⟨o, k, zs⟩, q1, r1⟩ := C.bind_ok r1
      obtain ⟨⟨os, k', zs'⟩, q2, r1⟩ := C.bind_ok r1
      simp only [Except.ok.injEq, Prod.mk.injEq] at r1
      obtain ⟨rfl, rfl, rfl⟩ := r1
      have hx := exec_refines (M := M) I1 op hop
      simp only [q1, RefinesO] at hx
      obtain ⟨s', h', x1, x2, x3, x4⟩ := hx
      rw [← x2] at q2
      obtain ⟨t1, t2, hh, y1, y2, y3, y4, y5⟩ := ih x3 (I2.of_frame x4 hne.symm) hv' q2 r2
      exact ⟨t1, t2, hh, by rw [runTwo, x1]; simp only [C.ok_bind, y1], y2, y3, y4, y5⟩
    | false =>
      have e1 : callsOf true ((false, op) :: prog) = callsOf true prog := by simp [callsOf]
      have e2 : callsOf false ((false, op) :: prog) = op :: callsOf false prog := by simp [callsOf]
      rw [e2, runC] at r2
      rw [e1] at r1
      obtain ⟨⟨o, k, zs⟩, q1, r2⟩ := C.bind_ok r2
      obtain ⟨⟨os, k', zs'⟩, q2, r2⟩ := C.bind_ok r2
      simp only [Except.ok.injEq, Prod.mk.injEq] at r2
      obtain ⟨rfl, rfl, rfl⟩ := r2
      have hx := exec_refines (M := M) I2 op hop
      simp only [q1, RefinesO] at hx
      obtain ⟨s', h', x1, x2, x3, x4⟩ := hx
      rw [← x2] at q2
      obtain ⟨t1, t2, hh, y1, y2, y3, y4, y5⟩ := ih (I1.of_frame x4 hne) x3 hv' r1 q2
      exact ⟨t1, t2, hh, by rw [runTwo, x1]; simp only [C.ok_bind, y1], y2, y3, y4, y5⟩

theorem pure_of_two (I1 : SpotInv h s1 a1 c1 xs1) (I2 : SpotInv h s2 a2 c2 xs2) (hne : a1 ≠ a2)
    (prog : List (Bool × Op α)) (hv : ∀ p ∈ prog, p.2.valid) {r}
    (hr : runTwo M h s1 s2 prog = .ok r) :
    (∃ p1, runC M c1 s1.core xs1 (callsOf true prog) = .ok p1) ∧
    (∃ p2, runC M c2 s2.core xs2 (callsOf false prog) = .ok p2) := by
  induction prog generalizing h s1 s2 xs1 xs2 r with
  | nil => exact ⟨⟨_, rfl⟩, _, rfl⟩
  | cons p prog ih =>
    obtain ⟨b, op⟩ := p
    have hop : op.valid := hv (b, op) (by simp)
    have hv' : ∀ p ∈ prog, p.2.valid := fun p hp => hv p (by simp [hp])
    cases b with
    | true =>
      have e1 : callsOf true ((true, op) :: prog) = op :: callsOf true prog := by simp [callsOf]
      have e2 : callsOf false ((true, op) :: prog) = callsOf false prog := by simp [callsOf]
      rw [e1, e2]
      rw [runTwo] at hr
      obtain ⟨r0, g1, hr⟩ := C.bind_ok hr
      obtain ⟨r1, g2, hr⟩ := C.bind_ok hr
      have hx := exec_refines (M := M) I1 op hop
      cases hq : execC M c1 s1.core xs1 op with
      | error e => simp only [hq, RefinesO] at hx; rw [hx] at g1; cases g1
      | ok pp =>
        obtain ⟨o, k, zs⟩ := pp
        simp only [hq, RefinesO] at hx
        obtain ⟨s', h', x1, x2, x3, x4⟩ := hx
        rw [x1] at g1
        cases g1
        obtain ⟨⟨p1, w1⟩, p2, w2⟩ := ih x3 (I2.of_frame x4 hne.symm) hv' g2
        rw [x2] at w1
        refine ⟨⟨(o :: p1.1, p1.2.1, p1.2.2), ?_⟩, p2, w2⟩
        · rw [runC, hq]; simp only [C.ok_bind, w1]
    | false =>
      have e1 : callsOf true ((false, op) :: prog) = callsOf true prog := by simp [callsOf]
      have e2 : callsOf false ((false, op) :: prog) = op :: callsOf false prog := by simp [callsOf]
      rw [e1, e2]
      rw [runTwo] at hr
      obtain ⟨r0, g1, hr⟩ := C.bind_ok hr
      obtain ⟨r1, g2, hr⟩ := C.bind_ok hr
      have hx := exec_refines (M := M) I2 op hop
      cases hq : execC M c2 s2.core xs2 op with
      | error e => simp only [hq, RefinesO] at hx; rw [hx] at g1; cases g1
      | ok pp =>
        obtain ⟨o, k, zs⟩ := pp
        simp only [hq, RefinesO] at hx
        obtain ⟨s', h', x1, x2, x3, x4⟩ := hx
        rw [x1] at g1
        cases g1
        obtain ⟨⟨p1, w1⟩, p2, w2⟩ := ih (I1.of_frame x4 hne) x3 hv' g2
        rw [x2] at w2
        refine ⟨⟨p1, w1⟩, (o :: p2.1, p2.2.1, p2.2.2), ?_⟩
        · rw [runC, hq]; simp only [C.ok_bind, w2]

/-- a run of one detector, in terms of the pure run -/
theorem run_iff {h : Heap α} {s : Spot α} {a c : ℕ} {xs : List α} (I : SpotInv h s a c xs) (ops : List (Op α))
    (hv : ∀ op ∈ ops, op.valid) {o : List (Out α)} {s' : Spot α} {h' : Heap α}
    (hr : runOps M h s ops = .ok (o, s', h')) :
    ∃ ys, runC M c s.core xs ops = .ok (o, s'.core, ys) ∧ SpotInv h' s' a c ys ∧ Frame h h' a c := by
  have := run_refines (M := M) I ops hv
  cases hp : runC M c s.core xs ops with
  | error e => simp only [hp, RefinesO] at this; rw [this] at hr; cases hr
  | ok p =>
    obtain ⟨o1, k, ys⟩ := p
    simp only [hp, RefinesO] at this
    obtain ⟨s1, h1, e1, e2, e3, e4⟩ := this
    rw [e1] at hr
    cases hr
    exact ⟨ys, by rw [e2], e3, e4⟩

omit [CDoubleLaws α] in
/-- releasing a detector -/
theorem free_inv {lib : Lib α} {h : Heap α} {s : Spot α} {a c : ℕ} {xs : List α} (I : SpotInv h s a c xs)
    (hf : lib.freeSet = true) :
    spot_free lib h s = .ok (⟨cNAN, cNAN, -1, -1, cNAN, cNAN, cNAN, 0, 0,
      ⟨cNAN, cNAN, ⟨cNAN, cNAN, cNAN, cNAN, ⟨0, 0, cNAN, -1, some a⟩⟩⟩⟩, Function.update h a none) := by
  have R := I.ring
  unfold spot_free tail_free peaks_free ubend_free xfree
  simp only [R.data, Option.isSome_some, if_true, hf, R.cells, C.ok_bind]

omit [CDoubleLaws α] in
theorem free_freed {lib : Lib α} {h : Heap α} {s : Spot α} {a : ℕ} (hf : lib.freeSet = true)
    (hd : s.tail.peaks.container.data = some a) (hh : h a = none) : spot_free lib h s = .error .badFree := by
  unfold spot_free tail_free peaks_free ubend_free xfree
  simp [hd, hf, hh]

omit [CDoubleLaws α] in
theorem free_null {lib : Lib α} {h : Heap α} {s : Spot α} (hd : s.tail.peaks.container.data = none) :
    ∃ s', spot_free lib h s = .ok (s', h) := by
  unfold spot_free tail_free peaks_free ubend_free
  simp [hd]

omit [CDoubleLaws α] in
theorem free_unset {lib : Lib α} {h : Heap α} {s : Spot α} (hf : lib.freeSet = false) :
    ∃ s', spot_free lib h s = .ok (s', h) := by
  unfold spot_free tail_free peaks_free ubend_free xfree
  cases hd : s.tail.peaks.container.data <;> simp [hf]

end Verif
