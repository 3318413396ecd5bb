import Verif.Spec.History
import Verif.Model.Queue
import Verif.Props.ExplorationRefuted
import Verif.Props.ClosedLoop

/-!
# What the published messages depend on (C121)

C121_latest: of all map and odometry messages only the last of each kind before an iteration matters.
C121_queues: so the length of the subscriber queues does not.
C121_odom: the odometry matters only through the sample grid of the dynamic window.
C121_draws: the random integers do not matter before the memory has outgrown the batch.
-/

namespace Ergodic
variable {F : Type} [Flt F]

/-! ## Only the latest messages matter -/

namespace Expl

/-- the state after the messages `m` and `v`, if any -/
def feed (s : Expl F) (m : Option (OccupancyGrid F)) (v : Option (V3 F)) : Expl F :=
  { s with grid := (m.map mapOf).getD s.grid, map_received := m.isSome || s.map_received,
           vb := v.getD s.vb }

/-- the run of the loop on views -/
def play (s : Expl F) : List (View F) → Res (Expl F × List (Out F))
  | [] => .ok (s, [])
  | w :: ws => (s.feed w.map w.odom).iteration w.tf w.draws >>= fun r =>
      r.1.play ws >>= fun q => .ok (q.1, r.2 ++ q.2)

theorem feed_map (s : Expl F) (m : Option (OccupancyGrid F)) (v : Option (V3 F)) (x : OccupancyGrid F) :
    (s.feed m v).mapCallback x = s.feed (some x) v := by
  simp only [feed, mapCallback, Option.map_some, Option.getD_some, Option.isSome_some, Bool.true_or]
  rfl

theorem feed_odom (s : Expl F) (m : Option (OccupancyGrid F)) (v : Option (V3 F)) (x : V3 F) :
    (s.feed m v).odomCallback x = s.feed m (some x) := by
  simp [feed, odomCallback]

theorem feed_fed (s : Expl F) (m : Option (OccupancyGrid F)) (v : Option (V3 F)) {t : Expl F}
    (h : t.grid = (s.feed m v).grid ∧ t.map_received = (s.feed m v).map_received ∧ t.vb = (s.feed m v).vb) :
    t.feed m v = t := by
  obtain ⟨h1, h2, h3⟩ := h
  unfold feed at h1 h2 h3 ⊢
  dsimp only at h1 h2 h3
  cases t
  dsimp only at h1 h2 h3
  subst h1 h2 h3
  cases m <;> cases v <;> rfl

theorem iteration_frame {s t : Expl F} {tf : Option (TransformMsg F)} {draws : List Nat} {o : List (Out F)}
    (h : s.iteration tf draws = .ok (t, o)) :
    t.grid = s.grid ∧ t.map_received = s.map_received ∧ t.vb = s.vb := by
  obtain ⟨-, -, f1, f2, f3, -⟩ := s.localize_frame tf
  rcases iteration_ok h with ⟨-, rfl, -⟩ | ⟨-, r, o1, o2, hr, ha, -⟩
  · exact ⟨f3, f1, f2⟩
  · obtain ⟨i, f, he⟩ := (s.localize tf).advanceDwa_frame
    rw [he] at hr
    have h1 : r.grid = s.grid ∧ r.map_received = s.map_received ∧ r.vb = s.vb := by
      rcases replan_ok hr with ⟨-, rfl, -⟩ | ⟨-, ec, u, p, -, -, rfl, -⟩ <;> exact ⟨f3, f1, f2⟩
    rcases avoid_ok ha with ⟨-, rfl, -⟩ | ⟨-, ⟨-, b, v, -, rfl, -⟩ |
        ⟨-, ref, b, v, -, -, ⟨-, rfl, -⟩ | ⟨-, q, -, rfl, -⟩⟩⟩ <;> exact h1

theorem run_play (es : List (Event F)) : ∀ (s : Expl F) (m : Option (OccupancyGrid F)) (v : Option (V3 F)),
    (s.feed m v).run es = s.play (views m v es) >>= fun r =>
      .ok (r.1.feed ((maps es).getLast?.or m) ((odoms es).getLast?.or v), r.2) := by
  induction es with
  | nil => intro s m v; rfl
  | cons e es ih =>
    intro s m v
    cases e with
    | map x =>
      have e1 : maps (.map x :: es) = x :: maps es := rfl
      have e2 : odoms (.map x :: es) = odoms es := rfl
      rw [e1, e2, List.getLast?_cons]
      simp only [run, step, Res.ok_bind, views, feed_map, ih, List.nil_append]
      cases h : (maps es).getLast? <;> cases s.play (views (some x) v es) <;> rfl
    | odom x =>
      have e1 : maps (.odom x :: es) = maps es := rfl
      have e2 : odoms (.odom x :: es) = x :: odoms es := rfl
      rw [e1, e2, List.getLast?_cons]
      simp only [run, step, Res.ok_bind, views, feed_odom, ih, List.nil_append]
      cases h : (odoms es).getLast? <;> cases s.play (views m (some x) es) <;> rfl
    | tick tf d =>
      have e1 : maps (.tick tf d :: es) = maps es := rfl
      have e2 : odoms (.tick tf d :: es) = odoms es := rfl
      rw [e1, e2]
      simp only [run, step, views, play]
      cases hi : (s.feed m v).iteration tf d with
      | ok r =>
        obtain ⟨t, o⟩ := r
        simp only [Res.ok_bind]
        have := ih t m v
        rw [feed_fed s m v (iteration_frame hi)] at this
        rw [this]
        cases t.play (views m v es) <;> rfl
      | throw _ => rfl
      | ub => rfl
      | timeout => rfl

theorem feed_none (s : Expl F) : s.feed none none = s := rfl

end Expl

/-- C121, in every arithmetic and from every state: two histories in which every iteration gets the same
transform and random integers, and sees the same last map and the same last measured twist, publish the
same (or end in the same error).  How many messages came, which ones came before the last, and in which
order the two kinds came, does not matter. -/
theorem C121_latest (s : Expl F) (es es' : List (Event F)) (h : views none none es = views none none es') :
    published (s.run es) = published (s.run es') ∧
    ((maps es).getLast? = (maps es').getLast? → (odoms es).getLast? = (odoms es').getLast? →
      s.run es = s.run es') := by
  have e1 := Expl.run_play es s none none
  have e2 := Expl.run_play es' s none none
  rw [Expl.feed_none] at e1 e2
  rw [← h] at e2
  refine ⟨?_, fun h1 h2 => by rw [e1, e2, h1, h2]⟩
  rw [e1, e2]
  cases s.play (views none none es) <;> rfl

/-- C121_latest for the executables. -/
theorem C121_latest_node (n : Node F) (es es' : List (Event F)) (h : views none none es = views none none es') :
    published (n.run es) = published (n.run es') := by
  have lift : ∀ (es : List (Event F)) (n : Node F), n.run es =
      if n.up then (n.expl.run es >>= fun r => .ok ({ n with expl := r.1 }, r.2)) else .ok (n, []) := by
    intro es
    induction es with
    | nil =>
      intro n
      obtain ⟨x, u⟩ := n
      cases u <;> rfl
    | cons e es ih =>
      intro n
      obtain ⟨x, u⟩ := n
      cases u with
      | false => simp only [Node.run, Node.step, Bool.false_eq_true, if_false, Res.ok_bind, ih, List.nil_append]
      | true =>
        simp only [Node.run, Node.step, if_true, Expl.run]
        cases x.step e with
        | ok r =>
          simp only [Res.ok_bind, ih, if_true]
          cases r.1.run es <;> rfl
        | throw _ => rfl
        | ub => rfl
        | timeout => rfl
  rw [lift, lift]
  cases hu : n.up with
  | false => rfl
  | true =>
    have := (C121_latest n.expl es es' h).1
    simp only [if_true]
    revert this
    cases n.expl.run es <;> cases n.expl.run es' <;> simp [published]

/-- Non-vacuity: two histories of different length that agree in the above sense. -/
example (m m' : OccupancyGrid F) (v v' : V3 F) (tf : TransformMsg F) :
    views none none [.map m', .odom v', .map m, .odom v, .tick (some tf) [1], .map m, .tick none []] =
    views none none [.odom v, .map m', .map m, .tick (some tf) [1], .odom v, .tick none []] := rfl

/-! ## The length of the queues -/

omit [Flt F] in
theorem views_append (w : List (Event F)) (hw : ∀ e ∈ w, e.isTick = false) (es : List (Event F)) :
    ∀ (m : Option (OccupancyGrid F)) (v : Option (V3 F)), views m v (w ++ es) =
      views ((maps w).getLast?.or m) ((odoms w).getLast?.or v) es := by
  induction w with
  | nil => intro m v; rfl
  | cons e w ih =>
    intro m v
    have ih := ih (fun x hx => hw x (List.mem_cons_of_mem _ hx))
    cases e with
    | map x =>
      have e1 : maps (.map x :: w) = x :: maps w := rfl
      have e2 : odoms (.map x :: w) = odoms w := rfl
      rw [e1, e2, List.getLast?_cons, List.cons_append, views, ih]
      cases (maps w).getLast? <;> rfl
    | odom x =>
      have e1 : maps (.odom x :: w) = maps w := rfl
      have e2 : odoms (.odom x :: w) = x :: odoms w := rfl
      rw [e1, e2, List.getLast?_cons, List.cons_append, views, ih]
      cases (odoms w).getLast? <;> rfl
    | tick tf d => exact absurd (hw _ List.mem_cons_self) (by simp [Event.isTick])

theorem mem_dropOldest {α : Type} {p : α → Bool} {x : α} : ∀ {l : List α}, x ∈ dropOldest p l → x ∈ l := by
  intro l
  induction l with
  | nil => intro h; exact h
  | cons y l ih =>
    intro h
    unfold dropOldest at h
    split at h
    · exact List.mem_cons_of_mem _ h
    · rcases List.mem_cons.mp h with h | h
      · exact h ▸ List.mem_cons_self
      · exact List.mem_cons_of_mem _ (ih h)

theorem filterMap_dropOldest {α β : Type} {p : α → Bool} {f : α → Option β} (h : ∀ x, p x = true → f x = none)
    (l : List α) : (dropOldest p l).filterMap f = l.filterMap f := by
  induction l with
  | nil => rfl
  | cons y l ih =>
    unfold dropOldest
    split
    · rename_i hp
      rw [List.filterMap_cons_none (h y hp)]
    · rw [List.filterMap_cons, List.filterMap_cons, ih]

omit [Flt F] in
/-- a message that arrives is the last of its kind, and the others stay -/
theorem enqueue_map (q : Nat) (m : OccupancyGrid F) (w : List (Event F)) (hw : ∀ e ∈ w, e.isTick = false) :
    (maps (enqueue q Event.isMap (.map m) w)).getLast? = some m ∧
    odoms (enqueue q Event.isMap (.map m) w) = odoms w ∧
    ∀ e ∈ enqueue q Event.isMap (.map m) w, e.isTick = false := by
  unfold enqueue
  refine ⟨by simp [maps, Event.map?], ?_, ?_⟩
  · simp only [odoms, List.filterMap_append]
    rw [show [Event.map m].filterMap Event.odom? = [] from rfl, List.append_nil]
    split
    · exact filterMap_dropOldest (fun x hx => by cases x <;> simp_all [Event.isMap, Event.odom?]) w
    · rfl
  · intro e he
    rcases List.mem_append.mp he with he | he
    · split at he
      · exact hw e (mem_dropOldest he)
      · exact hw e he
    · rw [List.mem_singleton.mp he]; rfl

omit [Flt F] in
theorem enqueue_odom (q : Nat) (v : V3 F) (w : List (Event F)) (hw : ∀ e ∈ w, e.isTick = false) :
    (odoms (enqueue q Event.isOdom (.odom v) w)).getLast? = some v ∧
    maps (enqueue q Event.isOdom (.odom v) w) = maps w ∧
    ∀ e ∈ enqueue q Event.isOdom (.odom v) w, e.isTick = false := by
  unfold enqueue
  refine ⟨by simp [odoms, Event.odom?], ?_, ?_⟩
  · simp only [maps, List.filterMap_append]
    rw [show [Event.odom v].filterMap Event.map? = [] from rfl, List.append_nil]
    split
    · exact filterMap_dropOldest (fun x hx => by cases x <;> simp_all [Event.isOdom, Event.map?]) w
    · rfl
  · intro e he
    rcases List.mem_append.mp he with he | he
    · split at he
      · exact hw e (mem_dropOldest he)
      · exact hw e he
    · rw [List.mem_singleton.mp he]; rfl

omit [Flt F] in
theorem views_delivered (qm qo qm' qo' : Nat) (is : List (Incoming F)) : ∀ (w w' : List (Event F))
    (m : Option (OccupancyGrid F)) (v : Option (V3 F)), (∀ e ∈ w, e.isTick = false) → (∀ e ∈ w', e.isTick = false) →
    (maps w).getLast? = (maps w').getLast? → (odoms w).getLast? = (odoms w').getLast? →
    views m v (delivered qm qo w is) = views m v (delivered qm' qo' w' is) := by
  induction is with
  | nil => intros; rfl
  | cons i is ih =>
    intro w w' m v hw hw' hm ho
    cases i with
    | map x =>
      obtain ⟨a1, a2, a3⟩ := enqueue_map qm x w hw
      obtain ⟨b1, b2, b3⟩ := enqueue_map qm' x w' hw'
      exact ih _ _ m v a3 b3 (a1.trans b1.symm) (by rw [a2, b2, ho])
    | odom x =>
      obtain ⟨a1, a2, a3⟩ := enqueue_odom qo x w hw
      obtain ⟨b1, b2, b3⟩ := enqueue_odom qo' x w' hw'
      exact ih _ _ m v a3 b3 (by rw [a2, b2, hm]) (a1.trans b1.symm)
    | spin =>
      simp only [delivered]
      rw [views_append w hw, views_append w' hw', hm, ho]
      exact ih [] [] _ _ (by simp) (by simp) rfl rfl
    | tick tf d =>
      simp only [delivered, views]
      rw [ih w w' m v hw hw' hm ho]

/-- C121 for the queues, in every arithmetic: how long the queues of the two subscribers are makes no difference to
what the node publishes; the queues of one message (exploration.hpp:151-152) lose nothing. -/
theorem C121_queues (s : Expl F) (qm qo qm' qo' : Nat) (is : List (Incoming F)) :
    published (s.run (delivered qm qo [] is)) = published (s.run (delivered qm' qo' [] is)) :=
  (C121_latest s _ _ (views_delivered qm qo qm' qo' is [] [] none none (by simp) (by simp) rfl rfl)).1

/-- Non-vacuity: with queues of one message two of the four messages are dropped. -/
example (m m' : OccupancyGrid F) (v v' : V3 F) (tf : TransformMsg F) :
    delivered 1 1 [] [.map m, .odom v, .map m', .odom v', .spin, .tick (some tf) []] =
      [.map m', .odom v', .tick (some tf) []] ∧
    delivered 5 5 [] [.map m, .odom v, .map m', .odom v', .spin, .tick (some tf) []] =
      [.map m, .odom v, .map m', .odom v', .tick (some tf) []] := ⟨rfl, rfl⟩

/-! ## Odometry -/

theorem replan_vb (s : Expl F) (w : V3 F) (draws : List Nat) :
    ({ s with vb := w } : Expl F).replan draws = s.replan draws >>= fun r => .ok ({ r.1 with vb := w }, r.2) := by
  unfold Expl.replan
  dsimp only
  split
  · rfl
  · cases s.ec.control s.grid s.pose draws with
    | ok r =>
      simp only [Res.ok_bind]
      cases r.1.path s.map_frame_id <;> rfl
    | throw _ => rfl
    | ub => rfl
    | timeout => rfl

/-- one event, in two states that differ in the measured twist -/
theorem step_vb [StrictLt F] {s t t' : Expl F} {w : V3 F} {e e' : Event F} {o o' : List (Out F)}
    (he : SameButOdom e e') (h : s.step e = .ok (t, o))
    (h' : ({ s with vb := w } : Expl F).step e' = .ok (t', o')) :
    (o = o' ∧ t' = { t with vb := t'.vb }) ∨
    (o ≠ o' ∧ ∃ u u', twists o = [u] ∧ twists o' = [u'] ∧
      (IsSample s.dwa s.vb u ∨ u = ⟨lit 0 0, lit 0 0, lit 0 0⟩) ∧
      (IsSample s.dwa w u' ∨ u' = ⟨lit 0 0, lit 0 0, lit 0 0⟩)) := by
  cases he with
  | odom v v' =>
    simp only [Expl.step, Res.ok.injEq, Prod.mk.injEq] at h h'
    obtain ⟨rfl, rfl⟩ := h
    obtain ⟨rfl, rfl⟩ := h'
    exact .inl ⟨rfl, rfl⟩
  | same =>
    cases e with
    | map m =>
      simp only [Expl.step, Res.ok.injEq, Prod.mk.injEq] at h h'
      obtain ⟨rfl, rfl⟩ := h
      obtain ⟨rfl, rfl⟩ := h'
      exact .inl ⟨rfl, rfl⟩
    | odom v =>
      simp only [Expl.step, Res.ok.injEq, Prod.mk.injEq] at h h'
      obtain ⟨rfl, rfl⟩ := h
      obtain ⟨rfl, rfl⟩ := h'
      exact .inl ⟨rfl, rfl⟩
    | tick tf draws =>
      have hl : ({ s with vb := w } : Expl F).localize tf = { s.localize tf with vb := w } := by
        cases tf <;> rfl
      have ha : ({ s.localize tf with vb := w } : Expl F).advanceDwa = { (s.localize tf).advanceDwa with vb := w } := by
        unfold Expl.advanceDwa
        dsimp only
        split <;> rfl
      have htw := iteration_twists h
      have htw' := iteration_twists h'
      have hd : (s.localize tf).dwa = s.dwa := (s.localize_frame tf).2.1
      have hv : (s.localize tf).vb = s.vb := (s.localize_frame tf).2.2.2.1
      rcases Expl.iteration_ok h with ⟨hc, rfl, rfl⟩ | ⟨hc, r, o1, o2, hr, hav, rfl⟩
      · rcases Expl.iteration_ok h' with ⟨hc', rfl, rfl⟩ | ⟨hc', -⟩
        · left; rw [hl]; exact ⟨rfl, rfl⟩
        · rw [hl, show (({ s.localize tf with vb := w } : Expl F).map_received &&
              ({ s.localize tf with vb := w } : Expl F).pose_known) =
              ((s.localize tf).map_received && (s.localize tf).pose_known) from rfl, hc] at hc'
          cases hc'
      · rcases Expl.iteration_ok h' with ⟨hc', -⟩ | ⟨hc', r', o1', o2', hr', hav', rfl⟩
        · rw [hl, show (({ s.localize tf with vb := w } : Expl F).map_received &&
              ({ s.localize tf with vb := w } : Expl F).pose_known) =
              ((s.localize tf).map_received && (s.localize tf).pose_known) from rfl, hc] at hc'
          cases hc'
        · rw [hl, ha, replan_vb, hr, Res.ok_bind] at hr'
          simp only [Res.ok.injEq, Prod.mk.injEq] at hr'
          obtain ⟨rfl, rfl⟩ := hr'
          rw [if_pos hc] at htw
          rw [if_pos hc'] at htw'
          obtain ⟨i, f, hadv⟩ := (s.localize tf).advanceDwa_frame
          have hrd : r.dwa = s.dwa ∧ r.vb = s.vb := by
            rw [hadv] at hr
            rcases Expl.replan_ok hr with ⟨-, rfl, -⟩ | ⟨-, ec, u, p, -, -, rfl, -⟩ <;> exact ⟨hd, hv⟩
          rw [← hrd.1, ← hrd.2]
          rcases Expl.avoid_ok hav with ⟨hva, rfl, rfl⟩ | ⟨hva, hb⟩
          · rcases Expl.avoid_ok hav' with ⟨-, rfl, rfl⟩ | ⟨hva', -⟩
            · exact .inl ⟨rfl, rfl⟩
            · exact absurd (hva.symm.trans hva') (by simp)
          · rcases Expl.avoid_ok hav' with ⟨hva', -⟩ | ⟨-, hb'⟩
            · exact absurd (hva.symm.trans hva') (by simp)
            · have key : (o1 ++ o2 ++ [Out.twist t.u] = o1 ++ o2' ++ [Out.twist t'.u] →
                    t' = { t with vb := t'.vb }) ∧
                  (IsSample r.dwa r.vb t.u ∨ t.u = V3.zero) ∧ (IsSample r.dwa w t'.u ∨ t'.u = V3.zero) := by
                rcases hb with ⟨hf, b, u, hs, rfl, rfl⟩ | ⟨hf, ref, b, u, href, hs, hb⟩
                · rcases hb' with ⟨-, b', u', hs', rfl, rfl⟩ | ⟨hf', -⟩
                  · refine ⟨fun ho => ?_, ?_, ?_⟩
                    · simp only [List.append_nil, List.append_cancel_left_eq, List.cons.injEq, Out.twist.injEq,
                        and_true] at ho
                      rw [ho]
                    · rcases search_free (ref := []) (dt_ref := r.val_dt) (.inl hs) with hx | ⟨-, hx⟩
                      exacts [.inl hx.1, .inr hx]
                    · rcases search_free (ref := []) (dt_ref := r.val_dt) (.inl hs') with hx | ⟨-, hx⟩
                      exacts [.inl hx.1, .inr hx]
                  · rw [show ({ r with vb := w } : Expl F).follow_dwa = r.follow_dwa from rfl, hf] at hf'
                    cases hf'
                · rcases hb' with ⟨hf', -⟩ | ⟨-, ref', b', u', href', hs', hb'⟩
                  · rw [show ({ r with vb := w } : Expl F).follow_dwa = r.follow_dwa from rfl, hf] at hf'
                    cases hf'
                  · have hx := search_free (vref := V3.zero) (.inr hs)
                    have hx' := search_free (vref := V3.zero) (.inr hs')
                    have hz : IsSample r.dwa r.vb u ∨ u = V3.zero := hx.imp (·.1) (·.2)
                    have hz' : IsSample r.dwa w u' ∨ u' = V3.zero := hx'.imp (·.1) (·.2)
                    rcases hb with ⟨-, rfl, rfl⟩ | ⟨-, p, -, rfl, rfl⟩ <;>
                      rcases hb' with ⟨-, rfl, rfl⟩ | ⟨-, p', -, rfl, rfl⟩ <;>
                      refine ⟨fun ho => ?_, hz, hz'⟩
                    · simp only [List.append_nil, List.append_cancel_left_eq, List.cons.injEq, Out.twist.injEq,
                        and_true] at ho
                      rw [ho]
                    · have := congrArg List.length ho
                      simp at this
                    · have := congrArg List.length ho
                      simp at this
                    · simp only [List.append_assoc, List.append_cancel_left_eq, List.cons_append, List.nil_append,
                        List.cons.injEq, Out.twist.injEq, and_true] at ho
                      rw [ho.2]
              by_cases hoo : o1 ++ o2 ++ [Out.twist t.u] = o1 ++ o2' ++ [Out.twist t'.u]
              · exact .inl ⟨hoo, key.1 hoo⟩
              · exact .inr ⟨hoo, t.u, t'.u, htw, htw', key.2⟩

theorem trace_vb [StrictLt F] {s t : Expl F} {es : List (Event F)} {os : List (List (Out F))}
    (h : Trace s es os t) : ∀ {es' : List (Event F)} {t' : Expl F}, List.Forall₂ SameButOdom es es' →
      Trace s es' os t' → t' = { t with vb := t'.vb } := by
  induction h with
  | nil =>
    intro es' t' hf h'
    cases hf
    exact (Trace.det .nil h').2 ▸ rfl
  | @snoc t1 t2 es os e o ht hs ih =>
    intro es' t' hf h'
    have hr := List.forall₂_reverse_iff.mpr hf
    rw [List.reverse_append] at hr
    simp only [List.reverse_cons, List.reverse_nil, List.nil_append, List.singleton_append] at hr
    cases hrev : es'.reverse with
    | nil => rw [hrev] at hr; cases hr
    | cons e' l' =>
      rw [hrev] at hr
      cases hr with
      | cons he hl =>
        have hes' : es' = l'.reverse ++ [e'] := by
          rw [← List.reverse_reverse es', hrev, List.reverse_cons]
        subst hes'
        have hl' : List.Forall₂ SameButOdom es l'.reverse := by
          rw [← List.forall₂_reverse_iff, List.reverse_reverse]; exact hl
        obtain ⟨t1', ht', hs'⟩ := h'.last
        have := ih hl' ht'
        rw [this] at hs'
        rcases step_vb he hs hs' with ⟨-, h⟩ | ⟨h, -⟩
        · exact h
        · exact absurd rfl h

/-- C121, in every arithmetic with a strict `<`: run the loop on two histories that differ only in the
twists the odometry measured, and suppose that everything published before the last event was the same.
Then the last event publishes the same too, or both runs publish one twist each and either is a grid point
of the dynamic window around the twist last measured in its own history, or zero.  So a wrong measurement
shows first, if at all, in a twist chosen by the dynamic window; a twist the ergodic controller planned never
depends on what the robot measured about its own velocity, unless a window twist was published before
differently. -/
theorem C121_odom [StrictLt F] {ec : ErgodicControl F} {collision : Collision F} {dwa : DynamicWindow F}
    {target : Target F} {frame : String} {val_dt val_horizon : F} {es es' : List (Event F)} {e e' : Event F}
    {os : List (List (Out F))} {o o' : List (Out F)} {t t' : Expl F}
    (hd : List.Forall₂ SameButOdom es es') (he : SameButOdom e e')
    (h : Trace (Expl.start ec collision dwa target frame val_dt val_horizon).1 (es ++ [e]) (os ++ [o]) t)
    (h' : Trace (Expl.start ec collision dwa target frame val_dt val_horizon).1 (es' ++ [e']) (os ++ [o']) t') :
    o = o' ∨ ∃ u u', twists o = [u] ∧ twists o' = [u'] ∧
      (IsSample dwa (lastOdom es) u ∨ u = ⟨lit 0 0, lit 0 0, lit 0 0⟩) ∧
      (IsSample dwa (lastOdom es') u' ∨ u' = ⟨lit 0 0, lit 0 0, lit 0 0⟩) := by
  obtain ⟨t1, ht, hs⟩ := h.last
  obtain ⟨t1', ht', hs'⟩ := h'.last
  have hv := trace_vb ht hd ht'
  have hv1 := ht.inv.vb_eq
  have hv2 := ht'.inv.vb_eq
  have hdw := ht.inv.dwa_eq
  rw [hv] at hs'
  rcases step_vb he hs hs' with ⟨h, -⟩ | ⟨-, u, u', a, b, c, d⟩
  · exact .inl h
  · rw [hdw, hv1] at c
    rw [hdw, hv2] at d
    exact .inr ⟨u, u', a, b, c, d⟩

/-! ## Random draws -/

theorem sampleMemory_draws {V : Type} (b : ReplayBuffer V) (h : b.memory.length ≤ b.batch_size) (d d' : List Nat)
    (xt : List V) : b.sampleMemory d xt = b.sampleMemory d' xt := by
  unfold ReplayBuffer.sampleMemory
  simp [h]

theorem control_draws (e : ErgodicControl F) (g : GridMap F) (x : V3 F)
    (h : e.buffer.memory.length ≤ e.buffer.batch_size) (d d' : List Nat) :
    e.control g x d = e.control g x d' := by
  unfold ErgodicControl.control
  cases hc : ({ e with pose := x } : ErgodicControl F).configTarget g with
  | ok ec =>
    obtain ⟨lx, ly, phik, rfl⟩ := ErgodicControl.configTarget_frame hc
    simp only [Res.ok_bind, sampleMemory_draws e.buffer h d d']
  | throw _ => rfl
  | ub => rfl
  | timeout => rfl

theorem append_length {V : Type} (b : ReplayBuffer V) (x : V) :
    (b.append x).memory.length ≤ b.memory.length + 1 ∧
    (b.memory.length ≤ b.buffer_size → (b.append x).memory.length ≤ b.buffer_size) ∧
    (b.append x).buffer_size = b.buffer_size ∧ (b.append x).batch_size = b.batch_size := by
  unfold ReplayBuffer.append ReplayBuffer.emplace
  split
  · dsimp only
    split
    · exact ⟨by omega, fun h => h, rfl, rfl⟩
    · simp only [List.length_append, List.length_singleton]
      exact ⟨le_rfl, fun _ => by omega, trivial, trivial⟩
  · exact ⟨by omega, fun h => h, rfl, rfl⟩

/-- the memory after an event -/
theorem step_buffer {s t : Expl F} {e : Event F} {o : List (Out F)} (h : s.step e = .ok (t, o)) :
    t.ec.buffer = (poses [e]).foldl ReplayBuffer.append s.ec.buffer := by
  cases e with
  | map m =>
    simp only [Expl.step, Res.ok.injEq, Prod.mk.injEq] at h
    rw [← h.1]; rfl
  | odom v =>
    simp only [Expl.step, Res.ok.injEq, Prod.mk.injEq] at h
    rw [← h.1]; rfl
  | tick tf d =>
    have hl : (s.localize tf).ec.buffer = (poses [Event.tick tf d]).foldl ReplayBuffer.append s.ec.buffer := by
      cases tf <;> rfl
    rw [← hl]
    rcases Expl.iteration_ok h with ⟨-, rfl, -⟩ | ⟨-, r, o1, o2, hr, ha, -⟩
    · rfl
    · obtain ⟨i, f, he⟩ := (s.localize tf).advanceDwa_frame
      rw [he] at hr
      have h1 : r.ec.buffer = (s.localize tf).ec.buffer := by
        rcases Expl.replan_ok hr with ⟨-, rfl, -⟩ | ⟨-, ec, u, p, hc, -, rfl, -⟩
        · rfl
        · exact (control_buffer hc).1
      rcases Expl.avoid_ok ha with ⟨-, rfl, -⟩ | ⟨-, ⟨-, b, v, -, rfl, -⟩ |
        ⟨-, ref, b, v, -, -, ⟨-, rfl, -⟩ | ⟨-, q, -, rfl, -⟩⟩⟩ <;> exact h1

theorem foldl_append_le {V : Type} : ∀ (xs : List V) (b : ReplayBuffer V),
    (xs.foldl ReplayBuffer.append b).memory.length ≤ b.memory.length + xs.length ∧
    (b.memory.length ≤ b.buffer_size → (xs.foldl ReplayBuffer.append b).memory.length ≤ b.buffer_size) ∧
    (xs.foldl ReplayBuffer.append b).buffer_size = b.buffer_size ∧
    (xs.foldl ReplayBuffer.append b).batch_size = b.batch_size := by
  intro xs
  induction xs with
  | nil => intro b; exact ⟨le_rfl, fun h => h, rfl, rfl⟩
  | cons x xs ih =>
    intro b
    obtain ⟨a1, a2, a3, a4⟩ := append_length b x
    obtain ⟨b1, b2, b3, b4⟩ := ih (b.append x)
    rw [a3] at b2 b3
    rw [a4] at b4
    simp only [List.foldl_cons, List.length_cons]
    exact ⟨by omega, fun h => b2 (a2 h), b3, b4⟩

/-- the memory never outgrows the batch while these events are handled -/
def StaysSmall (b : ReplayBuffer (V3 F)) (es : List (Event F)) : Prop :=
  b.memory.length + (poses es).length ≤ b.batch_size ∨
    (b.memory.length ≤ b.buffer_size ∧ b.buffer_size ≤ b.batch_size)

theorem poses_cons (e : Event F) (es : List (Event F)) : poses (e :: es) = poses [e] ++ poses es := by
  rw [poses, poses, poses, ← List.filterMap_append]
  rfl

theorem StaysSmall.next {b : ReplayBuffer (V3 F)} {e : Event F} {es : List (Event F)} (h : StaysSmall b (e :: es)) :
    StaysSmall ((poses [e]).foldl ReplayBuffer.append b) es := by
  obtain ⟨a1, a2, a3, a4⟩ := foldl_append_le (poses [e]) b
  unfold StaysSmall at *
  rw [poses_cons, List.length_append] at h
  rw [a3, a4]
  rcases h with h | ⟨h, h'⟩
  · left; omega
  · exact .inr ⟨a2 h, h'⟩

theorem StaysSmall.le {b : ReplayBuffer (V3 F)} {es : List (Event F)} (h : StaysSmall b es) :
    b.memory.length ≤ b.batch_size := by
  rcases h with h | ⟨h, h'⟩ <;> omega

theorem step_draws (s : Expl F) (tf : Option (TransformMsg F)) (d d' : List Nat) (es : List (Event F))
    (h : StaysSmall s.ec.buffer (.tick tf d :: es)) : s.step (.tick tf d) = s.step (.tick tf d') := by
  have hl : (s.localize tf).ec.buffer = (poses [Event.tick tf d]).foldl ReplayBuffer.append s.ec.buffer := by
    cases tf <;> rfl
  have hle : (s.localize tf).ec.buffer.memory.length ≤ (s.localize tf).ec.buffer.batch_size := by
    rw [hl]; exact h.next.le
  have hr : (s.localize tf).advanceDwa.replan d = (s.localize tf).advanceDwa.replan d' := by
    obtain ⟨i, f, he⟩ := (s.localize tf).advanceDwa_frame
    rw [he]
    unfold Expl.replan
    dsimp only
    rw [control_draws _ _ _ hle d d']
  simp only [Expl.step, Expl.iteration, hr]

/-- C121, in every arithmetic: as long as no more poses have been stored than the batch size, or when the
buffer is not larger than the batch, the random integers have no influence at all: two histories that differ
only in them have the same run, in every state and every message.  The node is deterministic until then. -/
theorem C121_draws (s : Expl F) (es es' : List (Event F)) (hd : List.Forall₂ SameButDraws es es')
    (h : s.ec.buffer.memory.length + (poses es).length ≤ s.ec.buffer.batch_size ∨
      (s.ec.buffer.memory.length ≤ s.ec.buffer.buffer_size ∧
        s.ec.buffer.buffer_size ≤ s.ec.buffer.batch_size)) :
    s.run es = s.run es' := by
  change StaysSmall s.ec.buffer es at h
  induction hd generalizing s with
  | nil => rfl
  | @cons e e' es es' he hes ih =>
    have hstep : s.step e = s.step e' := by
      cases he with
      | same => rfl
      | tick tf d d' => exact step_draws s tf d d' es h
    simp only [Expl.run, ← hstep]
    cases hs : s.step e with
    | ok r =>
      simp only [Res.ok_bind]
      rw [ih r.1 (by rw [step_buffer hs]; exact h.next)]
    | throw _ => rfl
    | ub => rfl
    | timeout => rfl

/-- Non-vacuity of C121_odom: the run of `side_run`, with an outdated measurement before the one that counts.
The twist published is the one the dynamic window chose. -/
example (v v' : V3 ℝ) : ∃ (ec : ErgodicControl ℝ) (t t' : Expl ℝ) (os : List (List (Out ℝ))) (o : List (Out ℝ)),
    let s := (Expl.start ec nearDetector (sideDwa 1 (UInt32.ofNat 1) 1 (-1) 1) ⟨[]⟩ "map" 0.1 0.1).1
    List.Forall₂ SameButOdom [Event.map sideMsg, .odom v, .odom ⟨1, 1 + 1, 1⟩]
      [Event.map sideMsg, .odom v', .odom ⟨1, 1 + 1, 1⟩] ∧
    Trace s ([.map sideMsg, .odom v, .odom ⟨1, 1 + 1, 1⟩] ++ [.tick (some midTf) []]) (os ++ [o]) t ∧
    Trace s ([.map sideMsg, .odom v', .odom ⟨1, 1 + 1, 1⟩] ++ [.tick (some midTf) []]) (os ++ [o]) t' ∧
    twists o = [⟨0, 1, 0⟩] := by
  obtain ⟨ec, hec⟩ := side_control omniModel (diag3 1 1 1) (-1) 1
  let s0 : Expl ℝ := (Expl.start ec nearDetector (sideDwa 1 (UInt32.ofNat 1) 1 (-1) 1) ⟨[]⟩ "map" 0.1 0.1).1
  let s : Expl ℝ := (s0.mapCallback sideMsg).odomCallback ⟨1, 1 + 1, 1⟩
  obtain ⟨ec', o, ht, ho, -⟩ := side_tick s 1 1 1 (-1) 1 (by norm_num) le_rfl le_rfl (by norm_num) le_rfl
    (.inl rfl) ⟨ec, hec, .setTarget _ .start⟩ rfl rfl rfl rfl rfl rfl rfl rfl
  have hpre : ∀ v, Trace s0 [.map sideMsg, .odom v, .odom ⟨1, 1 + 1, 1⟩] [[], [], []] s := fun v =>
    .snoc (es := [.map sideMsg, .odom v]) (os := [[], []]) (.snoc (es := [.map sideMsg]) (os := [[]])
      (.snoc (es := []) (os := []) .nil rfl) rfl) rfl
  exact ⟨ec, _, _, [[], [], []], o, .cons (.same _) (.cons (.odom _ _) (.cons (.same _) .nil)),
    .snoc (hpre v) ht, .snoc (hpre v') ht, ho⟩

/-- Non-vacuity of C121_draws: a batch of two poses and two iterations with different draws. -/
example (s : Expl F) (tf : TransformMsg F) (m : OccupancyGrid F) (hs : s.ec.buffer = { buffer_size := 9, batch_size := 2 }) :
    s.run [.map m, .tick (some tf) [0, 0], .tick (some tf) [0, 1], .tick none [7]] =
    s.run [.map m, .tick (some tf) [1, 0], .tick (some tf) [], .tick none [1, 0, 1]] :=
  C121_draws s _ _ (.cons (.same _) (.cons (.tick _ _ _) (.cons (.tick _ _ _) (.cons (.tick _ _ _) .nil))))
    (.inl (by rw [hs]; exact le_rfl))

end Ergodic
