/-
C117: the example program.
-/
import Verif.Model.Example
import Verif.Props.Step
import Verif.Props.Memory
import Verif.Props.P2

namespace Verif
open F64 (notNaN isFin)

/-! ### C117 -/

namespace Example

theorem loop_run {M : MathFns F64} : ∀ (xs : List F64), (∀ x ∈ xs, notNaN x) → ∀ (h : Heap F64) (s : Spot F64) (c : Counters),
    match loop M h s c xs with
    | .error e => runOps M h s (xs.map .step) = .error e
    | .ok (c', s', h') => ∃ outs, runOps M h s (xs.map .step) = .ok (outs, s', h') ∧ outs.length = xs.length ∧
        (∀ o ∈ outs, o = .code 0 ∨ o = .code 1 ∨ o = .code 2) ∧
        c'.normal = c.normal + outs.countP (fun o => o = .code 0) ∧
        c'.excess = c.excess + outs.countP (fun o => o = .code 1) ∧
        c'.anomaly = c.anomaly + outs.countP (fun o => o = .code 2) := by
  intro xs
  induction xs with
  | nil => intro _ h s c; exact ⟨[], rfl, rfl, by simp, by simp, by simp, by simp⟩
  | cons x xs ih =>
    intro hx h s c
    have hn := hx x (List.mem_cons_self ..)
    have ih := ih fun y hy => hx y (List.mem_cons_of_mem _ hy)
    unfold loop
    rw [List.map_cons]
    unfold runOps exec
    dsimp only
    cases hs : spot_step M h s x with
    | error e => rfl
    | ok p =>
      obtain ⟨r, s1, h1⟩ := p
      simp only [C.ok_bind]
      have hr : r = 0 ∨ r = 1 ∨ r = 2 := by
        rcases step_cases hs with ⟨n, _⟩ | ⟨_, _, e, _⟩ | ⟨_, _, _, e, _⟩ | ⟨_, _, _, e, _⟩
        · exact absurd ((F64.is_nan_iff x).mp n) hn
        · exact .inr (.inr e)
        · exact .inr (.inl e)
        · exact .inl e
      have := ih h1 s1 (c.count r)
      cases hl : loop M h1 s1 (c.count r) xs with
      | error e =>
        rw [hl] at this
        dsimp only at this ⊢
        rw [this]
        rfl
      | ok l =>
        obtain ⟨c', s', h'⟩ := l
        rw [hl] at this
        obtain ⟨outs, e1, e2, e3, e4, e5, e6⟩ := this
        dsimp only
        rw [e1]
        refine ⟨.code r :: outs, rfl, by simp [e2], ?_, ?_⟩
        · intro o ho
          rcases List.mem_cons.mp ho with rfl | ho
          · rcases hr with rfl | rfl | rfl <;> simp
          · exact e3 o ho
        · rw [e4, e5, e6, List.countP_cons, List.countP_cons, List.countP_cons]
          rcases hr with rfl | rfl | rfl <;>
            simp [Counters.count, ANOMALY, EXCESS, NORMAL] <;> omega

theorem counts (outs : List (Out F64)) (h : ∀ o ∈ outs, o = .code 0 ∨ o = .code 1 ∨ o = .code 2) :
    outs.countP (fun o => o = .code 0) + outs.countP (fun o => o = .code 1) + outs.countP (fun o => o = .code 2) = outs.length ∧
    outs.countP (fun o => o = .code 0 ∨ o = .code 1) = outs.countP (fun o => o = .code 0) + outs.countP (fun o => o = .code 1) := by
  induction outs with
  | nil => simp
  | cons o outs ih =>
    obtain ⟨i1, i2⟩ := ih fun y hy => h y (List.mem_cons_of_mem _ hy)
    simp only [List.countP_cons, List.length_cons]
    rcases h o (List.mem_cons_self ..) with rfl | rfl | rfl <;> simp at i1 i2 ⊢ <;> omega

end Example

/-- The example program with `N` training values and `K` observations, none of them NaN. There is no memory error. The exit status is 1000
if and only if the allocation fails; 1003 or 1004 when the training fails (1003 only with infinite or huge data). Otherwise the program prints three counters whose sum is the
number of observations; the detector has seen the training data and the observations that are not anomalies. The only memory touched is
the buffer of 200 doubles, which is still allocated at the end. -/
theorem C117_example (N : UInt64) (K : ℕ) (lib : Lib F64) (malloc : MallocFn F64) (h : Heap F64) (stack : Spot F64) (rexp : ℕ → F64)
    (hn : ∀ i, notNaN (rexp i)) :
    match Example.program N K lib malloc h stack rexp with
    | .error e => e = .floatConv ∧ malloc h 1600 ≠ none
    | .ok (status, printed, spot, h') =>
      (status = 1000 ∧ printed = none ∧ h' = h ∧ malloc h 1600 = none) ∨
      (∃ a, malloc h 1600 = some a ∧ (∀ b, b ≠ a → h' b = h b) ∧ (∃ cells, h' a = some cells ∧ cells.length = 200) ∧
        (5 ≤ N.toNat → N.toNat ≤ 2 ^ 53 → (∀ i < N.toNat, isFin (rexp i) ∧ |F64.toQ (rexp i)| ≤ 2 ^ 1022) →
          status ≠ 1003 ∧ isFin spot.excess_threshold) ∧
        ((status = 1003 ∨ status = 1004) ∧ printed = none ∨
         status = 0 ∧ ∃ normal excess anomaly : ℕ, normal + excess + anomaly = K ∧
          printed = some ⟨⟨normal, excess, anomaly⟩, spot.anomaly_threshold, spot.excess_threshold⟩ ∧ notNaN spot.excess_threshold ∧
          spot.n = N + UInt64.ofNat (normal + excess) ∧
          spot.Nt = UInt64.ofNat (Spec.beyond 0 spot.excess_threshold ((List.range N.toNat).map rexp)).length + UInt64.ofNat excess)) := by
  unfold Example.program
  set L := internal_set_allocators lib (some malloc) true with hL
  have hfu : L.fu = lib.fu := rfl
  have hm : L.malloc = some malloc := rfl
  have hc : initChecks (lit (1 / 10000) : F64) (lit (998 / 1000)) = true := by decide +kernel
  obtain ⟨g1, g2⟩ := init_of_checks (lib := L) (h := h) (s0 := stack) (low := 0) (disc := 1) (me := 200) hc
  have hx : xmalloc L h (200 * 8) = match malloc h 1600 with
      | none => (none, h)
      | some a => (some a, Function.update h a (some (List.replicate 200 none))) := by
    unfold xmalloc
    rw [hm]
    dsimp only
    rw [if_neg (by decide)]
    rfl
  dsimp only
  cases hmal : malloc h 1600 with
  | none =>
    rw [hmal] at hx
    obtain ⟨e1, e2⟩ := g1 (by rw [hx])
    rw [e1, e2, if_pos (by decide)]
    exact .inl ⟨by decide, rfl, rfl, rfl⟩
  | some a =>
    rw [hmal] at hx
    obtain ⟨e1, -, -, e2⟩ := g2 a (by rw [hx])
    rw [hx] at e2
    dsimp only at e2
    obtain ⟨a', x1, x2, x3, I⟩ := init_ok e1 (by decide) (by decide)
    have ea : a' = a := by
      rw [hx] at x1
      exact (Option.some.inj x1).symm
    subst ea
    rw [if_neg (by rw [e1]; decide)]
    generalize hr : spot_init L h stack (lit (1 / 10000)) 0 1 (lit (998 / 1000)) 200 = r at *
    have R0 : Reaches (codeMath L.fu) L (lit (1 / 10000)) 0 1 (lit (998 / 1000)) 200 r.2.1 r.2.2 :=
      ⟨by decide, by decide, h, stack, by rw [hr]; exact e1, [], [], by simp, by rw [hr]; rfl⟩
    set D := (List.range N.toNat).map rexp with hD
    have hsz : N.toNat ≤ D.length := by simp [hD]
    have htake : D.take N.toNat = D := List.take_of_length_le (by simp [hD])
    have fr0 : Frame h r.2.2 a' 200 := ⟨fun b hb => by rw [e2, Function.update_of_ne hb], _, by rw [e2, Function.update_self], List.length_replicate ..⟩
    set xs := (List.range K).map (fun k => rexp (N.toNat + k)) with hxs
    have hnn : ∀ x ∈ xs, notNaN x := by
      intro x hx
      obtain ⟨k, -, rfl⟩ := List.mem_map.mp hx
      exact hn _
    have hv : ∀ op ∈ Op.fit D N :: xs.map .step, op.valid := by
      intro op ho
      rcases List.mem_cons.mp ho with rfl | ho
      · exact hsz
      · obtain ⟨x, -, rfl⟩ := List.mem_map.mp ho
        trivial
    have safe : ∀ e, runOps (codeMath L.fu) r.2.2 r.2.1 (Op.fit D N :: xs.map .step) = .error e → e = .floatConv := fun e he =>
      C05_memory_safe L h stack _ _ 0 1 200 (by decide) (by decide) r hr.symm e1 _ hv e he
    unfold runOps exec at safe
    dsimp only at safe
    cases hf : spot_fit (codeMath L.fu) r.2.2 r.2.1 D N with
    | error e =>
      rw [hf] at safe
      exact ⟨safe e rfl, by simp⟩
    | ok f =>
      obtain ⟨fr, fs, fh⟩ := f
      rw [hf] at safe
      simp only [C.ok_bind] at safe ⊢
      obtain ⟨ys, -, I1, fr1⟩ := run_iff (M := codeMath L.fu) I [.fit D N] (fun op ho => by rw [List.mem_singleton.mp ho]; exact hsz) (o := [.code fr]) (s' := fs) (h' := fh)
        (by unfold runOps exec; dsimp only; rw [hf]; rfl)
      have fr1 := fr0.trans fr1
      have codes : fr = 0 ∨ fr = -1003 ∨ fr = -1004 := by
        obtain ⟨et, -, hcase⟩ := fit_cases I hsz hf
        rcases hcase with ⟨-, e, -⟩ | ⟨-, -, -, -, e⟩
        · exact .inr (.inl e)
        · split at e
          · exact .inr (.inr e)
          · exact .inl e
      have fin : 5 ≤ N.toNat → N.toNat ≤ 2 ^ 53 → (∀ i < N.toNat, isFin (rexp i) ∧ |F64.toQ (rexp i)| ≤ 2 ^ 1022) →
          fr ≠ -1003 ∧ isFin fs.excess_threshold := fun n1 n2 n3 => by
        obtain ⟨w1, w2, -⟩ := C43_fit L _ _ 0 1 200 _ _ R0 D N n1 hsz n2 (by
          intro x hx
          rw [htake] at hx
          obtain ⟨i, hi, rfl⟩ := List.mem_map.mp hx
          exact n3 i (List.mem_range.mp hi)) fr fs fh hf
        exact ⟨w1, w2⟩
      rcases codes with rfl | rfl | rfl
      · rw [if_neg (by decide)]
        have := Example.loop_run (M := codeMath L.fu) xs hnn fh fs ⟨0, 0, 0⟩
        cases hl : Example.loop (codeMath L.fu) fh fs ⟨0, 0, 0⟩ xs with
        | error e =>
          rw [hl] at this
          rw [this] at safe
          exact ⟨safe e rfl, by simp⟩
        | ok l =>
          obtain ⟨c', s', h'⟩ := l
          rw [hl] at this
          obtain ⟨outs, o1, o2, o3, o4, o5, o6⟩ := this
          obtain ⟨k1, k2⟩ := Example.counts outs o3
          obtain ⟨zs, -, -, fr2⟩ := run_iff I1 (xs.map .step) (fun op ho => hv op (List.mem_cons_of_mem _ ho)) o1
          have fr2 := fr1.trans fr2
          obtain ⟨m1, m2, m3, m4⟩ := C31_counters L _ _ 0 1 200 _ _ R0 D N hsz 0 fs fh hf (by decide) (xs.map .step)
            (fun op ho => by obtain ⟨x, -, rfl⟩ := List.mem_map.mp ho; trivial) outs s' h' o1
          refine .inr ⟨a', rfl, fr2.1, fr2.2, fun n1 n2 n3 => ⟨by decide, by rw [m1]; exact (fin n1 n2 n3).2⟩, .inr ⟨rfl, outs.countP (fun o => o = .code 0), outs.countP (fun o => o = .code 1),
            outs.countP (fun o => o = .code 2), ?_, ?_, ?_, ?_, ?_⟩⟩
          · rw [k1, o2, hxs]; simp
          · simp only [Int.zero_add] at o4 o5 o6
            rw [← o4, ← o5, ← o6]
          · rw [m1]; exact m2
          · rw [m3, k2]
          · rw [m4, m1, htake]
      · rw [if_pos (by decide)]
        exact .inr ⟨a', rfl, fr1.1, fr1.2, fun n1 n2 n3 => absurd rfl (fin n1 n2 n3).1, .inl ⟨.inl rfl, rfl⟩⟩
      · rw [if_pos (by decide)]
        exact .inr ⟨a', rfl, fr1.1, fr1.2, fun n1 n2 n3 => ⟨by decide, (fin n1 n2 n3).2⟩, .inl ⟨.inr rfl, rfl⟩⟩

/-- The program as it is. -/
theorem C117_main (lib : Lib F64) (malloc : MallocFn F64) (h : Heap F64) (stack : Spot F64) (rexp : ℕ → F64)
    (hd : ∀ i, isFin (rexp i) ∧ |F64.toQ (rexp i)| ≤ 2 ^ 1022) (spot : Spot F64) (h' : Heap F64)
    (status : ℤ) (printed : Option (Example.Printed F64)) (hr : Example.main lib malloc h stack rexp = .ok (status, printed, spot, h')) :
    (status = 1000 ↔ malloc h 1600 = none) ∧ (status = 0 ∨ status = 1000 ∨ status = 1004) ∧
    (status = 0 → ∃ normal excess anomaly : ℕ, normal + excess + anomaly = 50000000 ∧ spot.n.toNat = 20000 + normal + excess ∧
      spot.Nt.toNat = (Spec.beyond 0 spot.excess_threshold ((List.range 20000).map rexp)).length + excess ∧ isFin spot.excess_threshold ∧
      printed = some ⟨⟨normal, excess, anomaly⟩, spot.anomaly_threshold, spot.excess_threshold⟩) := by
  have nn : ∀ i, notNaN (rexp i) := fun i => (hd i).1.notNaN
  have := C117_example 20000 50000000 lib malloc h stack rexp nn
  unfold Example.main at hr
  rw [hr] at this
  rcases this with ⟨rfl, e1, e2, e3⟩ | ⟨a, e1, -, -, e2, e3⟩
  · exact ⟨⟨fun _ => e3, fun _ => rfl⟩, .inr (.inl rfl), fun h => absurd h (by decide)⟩
  · obtain ⟨e2, e4⟩ := e2 (by decide) (by decide) fun i _ => hd i
    rw [e1]
    rcases e3 with ⟨rfl | rfl, e3⟩ | ⟨rfl, k0, k1, k2, s1, s2, -, s3, s4⟩
    · exact absurd rfl e2
    · exact ⟨⟨fun h => absurd h (by decide), fun h => by cases h⟩, .inr (.inr rfl), fun h => absurd h (by decide)⟩
    · refine ⟨⟨fun h => absurd h (by decide), fun h => by cases h⟩, .inl rfl, fun _ => ⟨k0, k1, k2, s1, ?_, ?_, e4, s2⟩⟩
      · rw [s3, UInt64.toNat_add, UInt64.toNat_ofNat']
        have : (20000 : UInt64).toNat = 20000 := by decide
        rw [this]
        omega
      · rw [s4, UInt64.toNat_add, UInt64.toNat_ofNat', UInt64.toNat_ofNat']
        have h1 : (Spec.beyond 0 spot.excess_threshold ((List.range (20000 : UInt64).toNat).map rexp)).length ≤ 20000 := by
          unfold Spec.beyond
          refine (List.length_filter_le ..).trans ?_
          rw [List.length_map, List.length_range]
          decide
        have h2 : (20000 : UInt64).toNat = 20000 := by decide
        rw [h2] at h1 ⊢
        omega

/-- eight training values and three observations; the other values are 0 -/
def Example.draws : ℕ → F64
  | 7 => lit 1
  | 9 => lit 1000000
  | 8 => lit (-1)
  | 10 => lit (-1)
  | _ => lit 0

def Example.shown (r : C (ℤ × Option (Example.Printed F64) × Spot F64 × Heap F64)) : Option (ℤ × Option Example.Counters) :=
  match r with
  | .ok p => some (p.1, p.2.1.map (·.counters))
  | .error _ => none

example : (∀ i, isFin (Example.draws i) ∧ |F64.toQ (Example.draws i)| ≤ 2 ^ 1022) ∧
    Example.shown (Example.program 8 3 Sample.lib (fun _ _ => some 5) Sample.emptyHeap Sample.zeroed Example.draws) =
      some (0, some ⟨2, 0, 1⟩) := by
  refine ⟨fun i => ?_, by decide +kernel⟩
  have h : ∀ q ∈ ([0, 1, 1000000, -1] : List ℚ), isFin (lit q : F64) ∧ |F64.toQ (lit q : F64)| ≤ 2 ^ 1022 := by decide +kernel
  unfold Example.draws
  split <;> exact h _ (by decide)

end Verif
