import Verif.Lemmas.Buffer

/-!
# Properties C22–C23: replay buffer
-/

namespace Ergodic
open ReplayBuffer
variable {V : Type}

/-- the buffer after appending `history` to an empty one -/
def bufferAfter (capacity batch : Nat) (history : List V) : ReplayBuffer V :=
  history.foldl ReplayBuffer.append { buffer_size := capacity, batch_size := batch }

private theorem bufferAfter_memory (N B : Nat) (h : List V) :
    (bufferAfter N B h).memory = keyed (h.take N) ∧ (bufferAfter N B h).buffer_size = N ∧
      (bufferAfter N B h).batch_size = B := by
  induction h using List.reverseRecOn with
  | nil => simp [bufferAfter, keyed]
  | append_singleton h x ih =>
    have e : bufferAfter N B (h ++ [x]) = (bufferAfter N B h).append x := by
      simp [bufferAfter]
    obtain ⟨i0, i1, i2⟩ := ih
    obtain ⟨a0, a1, a2⟩ := append_keyed _ _ i0 x
    rw [e, a0, a1, a2, i1, i2]
    refine ⟨?_, rfl, rfl⟩
    congr 1
    rcases lt_or_ge h.length N with hl | hl
    · rw [List.take_of_length_le hl.le, if_pos hl, List.take_of_length_le (by simp; omega)]
    · rw [if_neg (by simp; omega), List.take_append_of_le_length hl]

/-- C22: after any history the buffer holds exactly the first `min(n, capacity)` states, each
under its arrival number, and nothing else. -/
theorem C22_first_states_kept (N B : Nat) (history : List V) :
    let b := bufferAfter N B history
    b.memory.length = min history.length N ∧
    (∀ k, (hk : k < history.length) → k < N → at' b.memory k = .ok history[k]) ∧
    (∀ k, min history.length N ≤ k → at' b.memory k = .throw .outOfRange) := by
  obtain ⟨hm, -, -⟩ := bufferAfter_memory N B history
  refine ⟨by simp [hm, min_comm], fun k hk hN => ?_, fun k hk => ?_⟩
  · rw [hm, at_keyed _ _ (by simp; omega)]; simp
  · rw [hm, at_keyed_none _ _ (by simp; omega)]

/-- C22: the memory never exceeds the capacity. -/
theorem C22_capacity (N B : Nat) (history : List V) :
    (bufferAfter N B history).memory.length ≤ N := by
  rw [(C22_first_states_kept N B history).1]; omega

/-- C22: once full, further states change nothing. -/
theorem C22_full_is_final (N B : Nat) (history later : List V) (h : N ≤ history.length) :
    (bufferAfter N B (history ++ later)).memory = (bufferAfter N B history).memory := by
  rw [(bufferAfter_memory N B _).1, (bufferAfter_memory N B _).1,
    List.take_append_of_le_length h]

example : (2 : Nat) ≤ [10, 20, 30].length := by decide

/-- C22: in whatever state the buffer is, storing a state overwrites nothing and leaves at most one
state under each key. -/
theorem C22_append_keeps (b : ReplayBuffer V) (x : V) :
    (∀ k v, ReplayBuffer.at' b.memory k = .ok v → ReplayBuffer.at' (b.append x).memory k = .ok v) ∧
      ((b.memory.map Prod.fst).Nodup → ((b.append x).memory.map Prod.fst).Nodup) := by
  have hf : ∀ k v, ReplayBuffer.at' b.memory k = .ok v →
      ReplayBuffer.at' (b.memory ++ [(b.memory.length, x)]) k = .ok v := by
    intro k v h
    unfold ReplayBuffer.at' at h ⊢
    rw [List.find?_append]
    cases hc : b.memory.find? (fun e => e.1 == k) with
    | none => rw [hc] at h; simp at h
    | some e => rw [hc] at h; simpa using h
  unfold ReplayBuffer.append
  split
  · unfold ReplayBuffer.emplace
    split
    · exact ⟨fun _ _ h => h, fun h => h⟩
    · rename_i hn
      refine ⟨hf, fun h => ?_⟩
      rw [List.map_append, List.nodup_append]
      refine ⟨h, by simp, ?_⟩
      rintro a ha c hc rfl
      simp only [List.map_cons, List.map_nil, List.mem_singleton] at hc
      subst hc
      apply hn
      obtain ⟨e, he, he'⟩ := List.mem_map.mp ha
      exact List.any_eq_true.mpr ⟨e, he, by simpa using he'⟩
  · exact ⟨fun _ _ h => h, fun h => h⟩

example : (ReplayBuffer.append ⟨5, 2, [(1, 'a')]⟩ 'b').memory = [(1, 'a')] ∧
    (ReplayBuffer.append ⟨5, 2, [(0, 'a')]⟩ 'b').memory = [(0, 'a'), (1, 'b')] := by decide

/-- C23: sampling never fails on a non-empty trajectory when the draws are what
`randi(batch, [0, stored-1])` returns; the result ends with the trajectory, and before it come
`min(stored, batch)` remembered states: all of them in order when they fit, otherwise the drawn
ones. -/
theorem C23_sample (N B : Nat) (history : List V) (draws : List Nat) (xt : List V)
    (hxt : xt ≠ []) (hd : draws.length = B) (hr : ∀ r ∈ draws, r < min history.length N) :
    ∃ pre, (bufferAfter N B history).sampleMemory draws xt = .ok (pre ++ xt) ∧
      pre.length = min (min history.length N) B ∧
      (∀ x ∈ pre, x ∈ history.take N) ∧
      (min history.length N ≤ B → pre = history.take N) ∧
      (B < min history.length N → ∀ k, (hk : k < B) → pre[k]? = history[draws[k]]?) := by
  obtain ⟨hm, -, hB⟩ := bufferAfter_memory N B history
  have hlen : (history.take N).length = min history.length N := by simp [min_comm]
  have hxt' : xt.isEmpty = false := by simpa using hxt
  unfold sampleMemory
  rw [hm, hB, keyed_length, hlen]
  by_cases h0 : (keyed (history.take N)).isEmpty
  · rw [if_pos h0]
    have ht : history.take N = [] := by
      apply List.length_eq_zero_iff.mp
      rw [← keyed_length]; exact List.isEmpty_iff_length_eq_zero.mp h0
    have hz : min history.length N = 0 := by rw [← hlen, ht]; rfl
    exact ⟨[], rfl, by rw [hz]; simp, by simp, fun _ => ht.symm, fun h => by omega⟩
  · rw [if_neg h0]
    by_cases hb : min history.length N ≤ B
    · rw [if_pos hb, mapM_at_keyed _ _ hlen.symm, Res.ok_bind, concatCols, hxt']
      exact ⟨history.take N, rfl, by omega, fun x h => h, fun _ => rfl, fun h => by omega⟩
    · rw [if_neg hb]
      obtain ⟨pre, h1, h2, h3⟩ := mapM_draw_keyed (history.take N) draws B hd (by rwa [hlen])
      rw [h1, Res.ok_bind, concatCols, hxt']
      have hget : ∀ k, (hk : k < B) → draws[k] < (history.take N).length := fun k hk => by
        rw [hlen]; exact hr _ (List.getElem_mem _)
      refine ⟨pre, rfl, by omega, fun x hx => ?_, fun h => absurd h hb, fun _ k hk => ?_⟩
      · obtain ⟨k, hk, rfl⟩ := List.getElem_of_mem hx
        have := h3 k (by omega)
        rw [List.getElem?_eq_getElem hk, List.getElem?_eq_getElem (hget k (by omega))] at this
        simp only [Option.some.injEq] at this
        rw [this]; exact List.getElem_mem _
      · have hg := hget k hk
        rw [h3 k hk, List.getElem?_eq_getElem hg, List.getElem_take,
          List.getElem?_eq_getElem]

/-- C23, the excluded case: with something in memory, an empty trajectory makes the column
assignment throw. -/
theorem C23_empty_trajectory_throws (N B : Nat) (history : List V) (draws : List Nat)
    (hd : draws.length = B) (hr : ∀ r ∈ draws, r < min history.length N)
    (hne : 0 < min history.length N) :
    (bufferAfter N B history).sampleMemory draws [] = .throw .logicError := by
  obtain ⟨hm, -, hB⟩ := bufferAfter_memory N B history
  have hlen : (history.take N).length = min history.length N := by simp [min_comm]
  have h0 : ¬ (keyed (history.take N)).isEmpty := by
    rw [List.isEmpty_iff_length_eq_zero, keyed_length]; omega
  unfold sampleMemory
  rw [hm, hB, keyed_length, hlen, if_neg h0]
  split
  · rw [mapM_at_keyed _ _ hlen.symm]; rfl
  · obtain ⟨pre, h1, -, -⟩ := mapM_draw_keyed (history.take N) draws B hd (by rwa [hlen])
    rw [h1]; rfl

example : ([1, 2] : List Nat) ≠ [] ∧ ([0, 2] : List Nat).length = 2 ∧
    ∀ r ∈ ([0, 2] : List Nat), r < min [10, 20, 30].length 5 := by decide

end Ergodic
