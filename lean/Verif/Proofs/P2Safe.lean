/-
The P2 estimator never leaves its arrays.
-/
import Verif.Model.P2
import Verif.Proofs.Monad
import Verif.Laws

namespace Verif
variable {α : Type} [CDouble α]

theorem findK_ok {q : Arr5 α} {xj : α} (h : ¬ (xj >. q.a4) = true) :
    ∃ k, findK q xj 6 0 = .ok k ∧ k ≤ 4 := by
  simp only [findK, Arr5.get, C.ok_bind]
  split_ifs
  · exact ⟨4, rfl, le_rfl⟩
  · exact ⟨3, rfl, by omega⟩
  · exact ⟨2, rfl, by omega⟩
  · exact ⟨1, rfl, by omega⟩
  · exact ⟨0, rfl, by omega⟩

theorem idx_up {i : ℕ} (h : i < 4) : idx i 1 = i + 1 := by unfold idx; omega
theorem idx_down {i : ℕ} (h : 1 ≤ i) (h' : i < 5) : idx i (-1) = i - 1 := by unfold idx; omega
theorem idx_zero {i : ℕ} (h' : i < 5) : idx i 0 = i := by unfold idx; omega

omit [CDouble α] in
theorem get_ok (a : Arr5 α) {i : ℕ} (h : i < 5) : ∃ v, a.get i = .ok v := by
  rcases (by omega : i = 0 ∨ i = 1 ∨ i = 2 ∨ i = 3 ∨ i = 4) with h | h | h | h | h <;> subst h <;> exact ⟨_, rfl⟩

omit [CDouble α] in
theorem set_ok (a : Arr5 α) {i : ℕ} (v : α) (h : i < 5) : ∃ a', a.set i v = .ok a' := by
  rcases (by omega : i = 0 ∨ i = 1 ∨ i = 2 ∨ i = 3 ∨ i = 4) with h | h | h | h | h <;> subst h <;> exact ⟨_, rfl⟩

theorem bumpN_ok (n : Arr5 α) (i : ℕ) : ∃ n', bumpN n i = .ok n' := by
  by_cases h : i < 5
  · rw [bumpN, dif_pos h]
    obtain ⟨v, hv⟩ := get_ok n h
    obtain ⟨n', hn'⟩ := set_ok n (i := i) (v +. lit 1) h
    rw [hv]; simp only [C.ok_bind, hn']
    exact bumpN_ok n' (i + 1)
  · exact ⟨n, by rw [bumpN, dif_neg h]⟩
termination_by 5 - i

theorem toInt32_sign [CDoubleLaws α] (d : α) : ∃ k, toInt32 (sign d) = .ok k ∧ (k = 1 ∨ k = -1 ∨ k = 0) := by
  unfold sign
  split
  · exact ⟨1, by rw [toInt32, CDoubleLaws.trunc_one]; simp, by simp⟩
  · split
    · exact ⟨-1, by rw [toInt32, CDoubleLaws.trunc_neg_one]; simp, by simp⟩
    · exact ⟨0, by rw [toInt32, CDoubleLaws.trunc_zero]; simp, by simp⟩

theorem parabolic_ok (p2 : P2 α) {i : ℕ} (h1 : 1 ≤ i) (h2 : i < 4) (d : ℤ) : ∃ v, parabolic p2 i d = .ok v := by
  unfold parabolic
  rw [idx_up h2, idx_down h1 (by omega)]
  obtain ⟨a, ha⟩ := get_ok p2.q (i := i) (by omega)
  obtain ⟨b, hb⟩ := get_ok p2.q (i := i + 1) (by omega)
  obtain ⟨c, hc⟩ := get_ok p2.q (i := i - 1) (by omega)
  obtain ⟨a', ha'⟩ := get_ok p2.n (i := i) (by omega)
  obtain ⟨b', hb'⟩ := get_ok p2.n (i := i + 1) (by omega)
  obtain ⟨c', hc'⟩ := get_ok p2.n (i := i - 1) (by omega)
  rw [ha, hb, hc, ha', hb', hc']
  exact ⟨_, rfl⟩

theorem linear_ok (p2 : P2 α) {i : ℕ} (h1 : 1 ≤ i) (h2 : i < 4) {d : ℤ} (hd : d = 1 ∨ d = -1 ∨ d = 0) :
    ∃ v, linear p2 i d = .ok v := by
  unfold linear
  have hi : idx i d < 5 := by
    rcases hd with h | h | h <;> subst h
    · rw [idx_up h2]; omega
    · rw [idx_down h1 (by omega)]; omega
    · rw [idx_zero (by omega)]; omega
  obtain ⟨a, ha⟩ := get_ok p2.q (i := i) (by omega)
  obtain ⟨b, hb⟩ := get_ok p2.q hi
  obtain ⟨a', ha'⟩ := get_ok p2.n (i := i) (by omega)
  obtain ⟨b', hb'⟩ := get_ok p2.n hi
  rw [ha, hb, ha', hb']
  exact ⟨_, rfl⟩

theorem adjust_ok [CDoubleLaws α] (p2 : P2 α) {i : ℕ} (h1 : 1 ≤ i) (h2 : i < 4) : ∃ p', adjust p2 i = .ok p' := by
  unfold adjust
  rw [idx_up h2, idx_down h1 (by omega)]
  obtain ⟨a, ha⟩ := get_ok p2.np (i := i) (by omega)
  obtain ⟨a', ha'⟩ := get_ok p2.n (i := i) (by omega)
  obtain ⟨b', hb'⟩ := get_ok p2.n (i := i + 1) (by omega)
  obtain ⟨c', hc'⟩ := get_ok p2.n (i := i - 1) (by omega)
  obtain ⟨b, hb⟩ := get_ok p2.q (i := i + 1) (by omega)
  obtain ⟨c, hc⟩ := get_ok p2.q (i := i - 1) (by omega)
  rw [ha, ha', hb', hc', hb, hc]
  simp only [C.ok_bind]
  split
  · obtain ⟨k, hk, hk'⟩ := toInt32_sign (a -. a')
    obtain ⟨v, hv⟩ := parabolic_ok p2 h1 h2 k
    obtain ⟨w, hw⟩ := linear_ok p2 h1 h2 hk'
    rw [hk]; simp only [C.ok_bind, hv, hw]
    have : ∃ qp, (if (!(c <. v && v <. b)) = true then (.ok w : C α) else .ok v) = .ok qp := by
      split <;> exact ⟨_, rfl⟩
    obtain ⟨qp, hqp⟩ := this
    rw [hqp]
    obtain ⟨q', hq'⟩ := set_ok p2.q (i := i) qp (by omega)
    obtain ⟨n', hn'⟩ := set_ok p2.n (i := i) (a' +. sign (a -. a')) (by omega)
    simp only [C.ok_bind, hq', hn']
    exact ⟨_, rfl⟩
  · exact ⟨_, rfl⟩

theorem p2_update_ok [CDoubleLaws α] (p2 : P2 α) (xj : α) : ∃ p', p2_update p2 xj = .ok p' := by
  unfold p2_update
  split
  · exact ⟨_, rfl⟩
  · split
    · exact ⟨_, rfl⟩
    · next h =>
      obtain ⟨k, hk, _⟩ := findK_ok h
      rw [hk]; simp only [C.ok_bind]
      obtain ⟨n, hn⟩ := bumpN_ok p2.n (idx (idx k (-1)) 1)
      rw [hn]; simp only [C.ok_bind]
      obtain ⟨p1, h1⟩ := adjust_ok { p2 with n := n, np := bumpNP p2.np p2.dn } (i := 1) (by omega) (by omega)
      rw [h1]; simp only [C.ok_bind]
      obtain ⟨p2', h2⟩ := adjust_ok p1 (i := 2) (by omega) (by omega)
      rw [h2]; simp only [C.ok_bind]
      exact adjust_ok p2' (by omega) (by omega)

/-- one treated value, as a total function -/
noncomputable def p2Step [CDoubleLaws α] (p2 : P2 α) (xj : α) : P2 α := (p2_update_ok p2 xj).choose

theorem p2Step_spec [CDoubleLaws α] (p2 : P2 α) (xj : α) : p2_update p2 xj = .ok (p2Step p2 xj) :=
  (p2_update_ok p2 xj).choose_spec

omit [CDouble α] in
theorem loadBuf_ok {data : List α} {i : ℕ} (h : i < data.length) : loadBuf data i = .ok data[i] := by
  unfold loadBuf; simp [h]

/-- `quantile` as a fold -/
theorem quantile_eq [CDoubleLaws α] (p2 : P2 α) (data : List α) (size : UInt64) (h5 : 5 ≤ size.toNat)
    (hs : size.toNat ≤ data.length) :
    quantile p2 data size = .ok (((data.take size.toNat).drop 5).foldl p2Step
      { p2 with q := sort5 ⟨data[0], data[1], data[2], data[3], data[4]⟩ }).q.a2 := by
  unfold quantile
  rw [if_neg (by omega)]
  rw [loadBuf_ok (i := 0) (by omega), loadBuf_ok (i := 1) (by omega), loadBuf_ok (i := 2) (by omega),
    loadBuf_ok (i := 3) (by omega), loadBuf_ok (i := 4) (by omega)]
  simp only [C.ok_bind, p2Step_spec]
  have hlen : size.toNat - 5 = ((data.take size.toNat).drop 5).length := by simp; omega
  rw [hlen, foldlM_read (f := fun acc v => (.ok (p2Step acc v) : C (P2 α))) (rd := fun i => loadBuf data i)
    ((data.take size.toNat).drop 5) 5, foldlM_ok]
  · rfl
  · intro i hi
    simp only [List.length_drop, List.length_take] at hi
    rw [loadBuf_ok (by omega)]
    simp

theorem p2_quantile_ok [CDoubleLaws α] (p : α) (data : List α) (size : UInt64) (hs : size.toNat ≤ data.length) :
    ∃ v, p2_quantile p data size = .ok v := by
  unfold p2_quantile
  by_cases h5 : 5 ≤ size.toNat
  · exact ⟨_, quantile_eq _ _ _ h5 hs⟩
  · unfold quantile; rw [if_pos (by omega)]; exact ⟨_, rfl⟩

end Verif
