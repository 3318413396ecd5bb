import Mathlib.Data.List.Basic
import Verif.Lemmas.Real
import Verif.Model.Buffer

/-! # Helper lemmas about the replay buffer -/

namespace Ergodic
namespace ReplayBuffer
variable {V : Type}

/-- the association list holding the states `s` under the keys `0, 1, …` -/
def keyed (s : List V) : List (Nat × V) := s.mapIdx fun i x => (i, x)

@[simp] theorem keyed_length (s : List V) : (keyed s).length = s.length := by simp [keyed]

theorem keyed_append_singleton (s : List V) (x : V) :
    keyed (s ++ [x]) = keyed s ++ [(s.length, x)] := by
  simp [keyed, List.mapIdx_append]

theorem find_keyed (s : List V) (k : Nat) :
    (keyed s).find? (fun e => e.1 == k) = s[k]?.map (fun x => (k, x)) := by
  induction s using List.reverseRecOn with
  | nil => simp [keyed]
  | append_singleton s x ih =>
    rw [keyed_append_singleton, List.find?_append, ih]
    rcases lt_trichotomy k s.length with h | h | h
    · simp [h, List.getElem?_append_left h]
    · subst h; simp
    · rw [List.getElem?_eq_none (by omega), List.getElem?_eq_none (by simp; omega)]
      have : (s.length == k) = false := by simp; omega
      simp [this]

theorem at_keyed (s : List V) (k : Nat) (h : k < s.length) : at' (keyed s) k = .ok s[k] := by
  simp [at', find_keyed, h]

theorem at_keyed_none (s : List V) (k : Nat) (h : s.length ≤ k) :
    at' (keyed s) k = .throw .outOfRange := by
  simp [at', find_keyed, List.getElem?_eq_none h]

theorem any_keyed (s : List V) : (keyed s).any (fun e => e.1 == s.length) = false := by
  have := find_keyed s s.length
  simp only [List.getElem?_eq_none le_rfl, Option.map_none, List.find?_eq_none] at this
  rw [List.any_eq_false]; exact this

theorem append_keyed (b : ReplayBuffer V) (s : List V) (hm : b.memory = keyed s) (x : V) :
    (b.append x).memory = keyed (if s.length < b.buffer_size then s ++ [x] else s) ∧
    (b.append x).buffer_size = b.buffer_size ∧ (b.append x).batch_size = b.batch_size := by
  unfold append
  rw [hm, keyed_length]
  split
  · refine ⟨?_, rfl, rfl⟩
    simp only [emplace, any_keyed, keyed_append_singleton]; simp
  · exact ⟨hm, rfl, rfl⟩

theorem mapM_ok {α β : Type} (f : α → Res β) (l : List α) (r : α → β)
    (h : ∀ a ∈ l, f a = .ok (r a)) : l.mapM f = .ok (l.map r) := by
  induction l with
  | nil => simp
  | cons a l ih =>
    rw [List.mapM_cons, h a (by simp), Res.ok_bind, ih fun b hb => h b (by simp [hb])]
    simp

theorem mapM_at_keyed (s : List V) (n : Nat) (hn : n = s.length) :
    (List.range n).mapM (fun i => at' (keyed s) i) = .ok s := by
  subst hn
  cases s with
  | nil => simp
  | cons a t =>
    rw [mapM_ok _ _ (fun i => (a :: t).getD i a)]
    · congr 1
      apply List.ext_getElem
      · simp
      · intro i h1 h2
        simp [List.getElem?_eq_getElem h2]
    · intro i hi
      have : i < (a :: t).length := by simpa using hi
      rw [at_keyed _ _ this]; simp [List.getElem?_eq_getElem this]

theorem mapM_draw_keyed (s : List V) (draws : List Nat) (B : Nat) (hd : draws.length = B)
    (hr : ∀ r ∈ draws, r < s.length) :
    ∃ pre, (List.range B).mapM (fun i => drawAt (keyed s) draws i) = .ok pre ∧ pre.length = B ∧
      ∀ k, (hk : k < B) → pre[k]? = s[draws[k]]? := by
  subst hd
  cases s with
  | nil =>
    cases draws with
    | nil => exact ⟨[], by simp, rfl, by simp⟩
    | cons a t => exact absurd (hr a (by simp)) (by simp)
  | cons a t =>
    refine ⟨(List.range draws.length).map fun i => (a :: t).getD (draws.getD i 0) a, ?_, by simp, ?_⟩
    · apply mapM_ok
      intro i hi
      have h1 : i < draws.length := by simpa using hi
      have h2 := hr draws[i] (List.getElem_mem _)
      simp only [drawAt, List.getElem?_eq_getElem h1, List.getD_eq_getElem?_getD, Option.getD_some]
      rw [at_keyed _ _ h2, List.getElem?_eq_getElem h2]; rfl
    · intro k hk
      have h2 := hr draws[k] (List.getElem_mem _)
      simp only [List.getElem?_map, List.getElem?_range hk, Option.map_some,
        List.getD_eq_getElem?_getD, List.getElem?_eq_getElem hk, Option.getD_some]
      rw [List.getElem?_eq_getElem h2]; rfl

end ReplayBuffer
end Ergodic
