/-
C149: what spot_fit reads of the buffer that it is given.
-/
import Verif.Props.Samples
import Verif.Props.Fit
import Verif.Props.P2

namespace Verif

namespace Prefix
variable {α β : Type}

theorem load_eq {data data' : List α} {n i : ℕ} (h : data.take n = data'.take n) (hi : i < n) : loadBuf data i = loadBuf data' i := by
  have : data[i]? = data'[i]? := by
    have := congrArg (fun l : List α => l[i]?) h
    simpa [List.getElem?_take, hi] using this
  unfold loadBuf
  rw [this]

theorem fold_eq {data data' : List α} {n : ℕ} (h : data.take n = data'.take n) (f : β → α → C β) (is : List ℕ) (hi : ∀ i ∈ is, i < n)
    (b : β) : is.foldlM (fun st i => loadBuf data i >>= fun x => f st x) b = is.foldlM (fun st i => loadBuf data' i >>= fun x => f st x) b := by
  induction is generalizing b with
  | nil => rfl
  | cons i is ih =>
    rw [List.foldlM_cons, List.foldlM_cons, load_eq h (hi i (by simp))]
    congr 1
    funext b'
    exact ih (fun j hj => hi j (by simp [hj])) b'

theorem fold_short {data : List α} (f : β → α → C β) (is : List ℕ) (hi : ∃ i ∈ is, data.length ≤ i) (b : β) :
    ∃ e, is.foldlM (fun st i => loadBuf data i >>= fun x => f st x) b = .error e := by
  induction is generalizing b with
  | nil => obtain ⟨i, hi, -⟩ := hi; simp at hi
  | cons i is ih =>
    rw [List.foldlM_cons]
    by_cases hl : data.length ≤ i
    · have : loadBuf data i = .error .outOfBounds := by
        unfold loadBuf
        rw [List.getElem?_eq_none hl]
      rw [this]
      exact ⟨_, rfl⟩
    · cases hb : (loadBuf data i >>= fun x => f b x) with
      | error e => exact ⟨e, rfl⟩
      | ok b' =>
        refine ih ?_ b'
        obtain ⟨j, hj, hlj⟩ := hi
        rcases List.mem_cons.mp hj with rfl | hj
        · exact absurd hlj hl
        · exact ⟨j, hj, hlj⟩

theorem quantile_eq [CDouble α] {data data' : List α} {size : UInt64} (h : data.take size.toNat = data'.take size.toNat) (p : P2 α) :
    quantile p data size = quantile p data' size := by
  unfold quantile
  split
  · rfl
  · rw [load_eq h (i := 0) (by omega), load_eq h (i := 1) (by omega), load_eq h (i := 2) (by omega), load_eq h (i := 3) (by omega),
      load_eq h (i := 4) (by omega)]
    congr 1; funext x0; congr 1; funext x1; congr 1; funext x2; congr 1; funext x3; congr 1; funext x4
    dsimp only
    rw [fold_eq h _ _ (fun i hi => by rw [List.mem_range'_1] at hi; omega)]

theorem quantile_short [CDouble α] {data : List α} {size : UInt64} (h5 : 5 ≤ size.toNat) (h : data.length < size.toNat) (p : P2 α) :
    ∃ e, quantile p data size = .error e := by
  have short : ∀ i, data.length ≤ i → loadBuf data i = .error .outOfBounds := fun i hi => by
    unfold loadBuf
    rw [List.getElem?_eq_none hi]
  have long : ∀ i (hi : i < data.length), loadBuf data i = .ok data[i] := fun i hi => by
    unfold loadBuf
    rw [List.getElem?_eq_getElem hi]
  unfold quantile
  rw [if_neg (by omega)]
  by_cases hl : 5 ≤ data.length
  · rw [long 0 (by omega), long 1 (by omega), long 2 (by omega), long 3 (by omega), long 4 (by omega)]
    simp only [C.ok_bind]
    obtain ⟨e, he⟩ := fold_short (data := data) (fun p2 xj => p2_update p2 xj) (List.range' 5 (size.toNat - 5))
      ⟨data.length, by rw [List.mem_range'_1]; omega, le_rfl⟩ { p with q := sort5 ⟨data[0], data[1], data[2], data[3], data[4]⟩ }
    rw [he]
    exact ⟨e, rfl⟩
  · have go : ∀ (i : ℕ) (k : α → C α), (data.length ≤ i ∨ ∀ x, ∃ e, k x = .error e) → ∃ e, (loadBuf data i >>= k) = .error e := by
      intro i k hk
      cases hx : loadBuf data i with
      | error e => exact ⟨e, rfl⟩
      | ok x =>
        rcases hk with hk | hk
        · rw [short i hk] at hx; cases hx
        · exact hk x
    exact go 0 _ (.inr fun _ => go 1 _ (.inr fun _ => go 2 _ (.inr fun _ => go 3 _ (.inr fun _ => go 4 _ (.inl (by omega))))))

theorem fold_exact (f : β → α → C β) (pre l : List α) (k : ℕ) (hk : l.length < k) (b b' : β) (h : l.foldlM f b = .ok b') :
    (List.range' pre.length k).foldlM (fun st i => loadBuf (pre ++ l) i >>= fun x => f st x) b = .error .outOfBounds := by
  induction l generalizing pre k b with
  | nil =>
    obtain ⟨k, rfl⟩ : ∃ m, k = m + 1 := ⟨k - 1, by simp at hk; omega⟩
    have : loadBuf (pre ++ []) pre.length = .error .outOfBounds := by
      unfold loadBuf
      rw [List.getElem?_eq_none (by simp)]
    rw [List.range'_succ, List.foldlM_cons, this]
    rfl
  | cons x l ih =>
    obtain ⟨k, rfl⟩ : ∃ m, k = m + 1 := ⟨k - 1, by simp at hk; omega⟩
    have hx : loadBuf (pre ++ x :: l) pre.length = .ok x := by
      unfold loadBuf
      simp
    rw [List.foldlM_cons] at h
    cases hb : f b x with
    | error e => rw [hb] at h; cases h
    | ok b1 =>
      rw [hb] at h
      have := ih (pre ++ [x]) k (by simp at hk; omega) b1 h
      rw [List.range'_succ, List.foldlM_cons, hx]
      simp only [C.ok_bind, hb]
      simpa using this

theorem quantile_exact {data : List F64} {size : UInt64} (h5 : 5 ≤ size.toNat) (h : data.length < size.toNat) (p : P2 F64) :
    quantile p data size = .error .outOfBounds := by
  unfold quantile
  rw [if_neg (by omega)]
  rcases data with _ | ⟨x0, _ | ⟨x1, _ | ⟨x2, _ | ⟨x3, _ | ⟨x4, l⟩⟩⟩⟩⟩ <;> try rfl
  have e := fold_exact (fun p2 xj => p2_update p2 xj) [x0, x1, x2, x3, x4] l (size.toNat - 5) (by simp only [List.length_cons] at h; omega)
    { p with q := sort5 ⟨x0, x1, x2, x3, x4⟩ } (l.foldl upd { p with q := sort5 ⟨x0, x1, x2, x3, x4⟩ })
    (by rw [show (fun p2 xj => p2_update p2 xj) = fun (p2 : P2 F64) xj => (.ok (upd p2 xj) : C _) from by
          funext a b; exact p2_update_eq a b]
        exact foldlM_ok _ _ _)
  simp only [List.length_cons, List.length_nil, List.cons_append, List.nil_append, Nat.zero_add, Nat.reduceAdd] at e
  simp only [loadBuf, List.getElem?_cons_zero, List.getElem?_cons_succ, C.ok_bind] at e ⊢
  rw [e]
  rfl

end Prefix
open Prefix

/-- `spot_fit(&spot, data, size)` depends on the first `size` values of the buffer only: whatever follows them has no influence on the returned
code, on the structure and on the memory. Any state, any number type, any elementary functions. -/
theorem C149_prefix {α : Type} [CDouble α] (M : MathFns α) (h : Heap α) (s : Spot α) (data data' : List α) (size : UInt64)
    (hd : data.take size.toNat = data'.take size.toNat) : spot_fit M h s data size = spot_fit M h s data' size := by
  unfold spot_fit p2_quantile
  dsimp only
  rw [Prefix.quantile_eq hd (init_p2 (lit 1 -. s.level)), Prefix.quantile_eq hd (init_p2 s.level)]
  congr 1
  funext et
  split
  · rfl
  · rw [fold_eq hd _ _ (fun i hi => List.mem_range.mp hi)]

/-- It reads all of them: with a buffer of less than `size` values the call is undefined, in every state and for every content. -/
theorem C149_short (M : MathFns F64) (h : Heap F64) (s : Spot F64) (data : List F64) (size : UInt64) (hd : data.length < size.toNat) :
    ∃ e, spot_fit M h s data size = .error e := by
  unfold spot_fit p2_quantile
  dsimp only
  by_cases h5 : 5 ≤ size.toNat
  · split
    · obtain ⟨e, he⟩ := quantile_short h5 hd (init_p2 (lit 1 -. s.level))
      rw [he]; exact ⟨e, rfl⟩
    · obtain ⟨e, he⟩ := quantile_short h5 hd (init_p2 s.level)
      rw [he]; exact ⟨e, rfl⟩
  · have hq : ∀ p : P2 F64, quantile p data size = .ok (lit 0) := fun p => by
      unfold quantile
      rw [if_pos (by omega)]
    have hn : is_nan (lit 0 : F64) = false := by decide +kernel
    simp only [hq, ite_self, C.ok_bind, hn, Bool.false_eq_true, if_false]
    obtain ⟨e, he⟩ := fold_short (data := data) (fun st x => fit_body (lit 0 : F64) st x) (List.range size.toNat)
      ⟨data.length, List.mem_range.mpr hd, le_rfl⟩ ({ s with Nt := 0, n := size, excess_threshold := lit 0 }, h)
    rw [he]
    exact ⟨e, rfl⟩

/-- For a detector that calls have reached, the undefined behaviour is that read past the end of the buffer and no other. -/
theorem C149_bounds (lib : Lib F64) (q level : F64) (low disc : ℤ) (me : UInt64) (s : Spot F64) (h : Heap F64)
    (R : Reaches (codeMath lib.fu) lib q low disc level me s h) (data : List F64) (size : UInt64) (hd : data.length < size.toNat) :
    spot_fit (codeMath lib.fu) h s data size = .error .outOfBounds := by
  obtain ⟨a, xs, I, -⟩ := R.inv
  unfold spot_fit p2_quantile
  dsimp only
  by_cases h5 : 5 ≤ size.toNat
  · rw [quantile_exact h5 hd, quantile_exact h5 hd]
    simp only [ite_self]
    rfl
  · have hq : ∀ p : P2 F64, quantile p data size = .ok (lit 0) := fun p => by
      unfold quantile
      rw [if_pos (by omega)]
    have hn : is_nan (lit 0 : F64) = false := by decide +kernel
    simp only [hq, ite_self, C.ok_bind, hn, Bool.false_eq_true, if_false]
    obtain ⟨p', h', hp, -, -⟩ := fit_loop (c := me.toNat) (a := a) (lit 0) data
      { s with Nt := 0, n := size, excess_threshold := lit 0 } h xs I
    have e := fold_exact (fit_body (lit 0 : F64)) [] data size.toNat hd _ _ hp
    rw [List.length_nil, List.nil_append, ← List.range_eq_range'] at e
    rw [e]
    rfl

/-- For a detector that was just initialised the undefined behaviour is the read past the end; with values enough the same call is defined, and
a value that follows has no influence. -/
example : (spot_fit (codeMath muslFU) Sample.heap Sample.spot [lit 1, lit 2, lit 3, lit 4, lit 5, lit 6] 7).map (fun r => r.1) = .error .outOfBounds ∧
    (spot_fit (codeMath muslFU) Sample.heap Sample.spot [lit 1] 2).map (fun r => r.1) = .error .outOfBounds ∧
    (spot_fit (codeMath muslFU) Sample.heap Sample.spot [lit 1, lit 2, lit 3, lit 4, lit 5, lit 6, lit 7] 7).map (fun r => r.1) = .ok 0 ∧
    [lit 1, lit 2, (lit 3 : F64)].take 2 = [lit 1, lit 2, F64.nan].take 2 := by decide +kernel

end Verif
