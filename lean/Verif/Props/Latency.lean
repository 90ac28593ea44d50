import Verif.Lemmas.Latency

/-! C77: the collection of latencies. -/

namespace Couchstore.Props

open Couchstore Couchstore.Lat

/-- Any number of threads, in any order of their steps, any number of times on and off: as long as the collection is started, stopped
and read while no thread is in a call, nothing is used after it was freed, and the map is not changed while it is walked.  Missing:
during calls, where it is false, see the theorems below. -/
theorem C77_safe_partial (acts : List LatAct) (s : LatState) (u : LatUse) (hs : latExec {} acts = some s) (hu : latUse {} acts = some u) :
    s.bad = false :=
  (inv_exec acts inv_init hs hu).good

/-- What is reported is the number and the sum of the latencies of exactly the calls that finished since the collection was started last;
nothing if the sum is zero. -/
theorem C77_report_partial (acts : List LatAct) (s : LatState) (u : LatUse) (hs : latExec {} (acts ++ [.reportBegin]) = some s)
    (hu : latUse {} (acts ++ [.reportBegin]) = some u) : s.said = if u.sum = 0 then none else some (u.count, u.sum) := by
  have h1 : ∀ (as : List LatAct) (s : LatState), latExec s (as ++ [.reportBegin]) = (latExec s as).bind latReportBegin := by
    intro as
    induction as with
    | nil => intro s; simp [latExec, latAct]
    | cons a as ih => intro s; simp only [List.cons_append, latExec, Option.bind_assoc]; congr 1; funext x; exact ih x
  have h2 : ∀ (as : List LatAct) (u : LatUse), latUse u (as ++ [.reportBegin]) = (latUse u as).bind (latUse1 · .reportBegin) := by
    intro as
    induction as with
    | nil => intro u; simp [latUse]
    | cons a as ih => intro u; simp only [List.cons_append, latUse, Option.bind_assoc]; congr 1; funext x; exact ih x
  rw [h1, Option.bind_eq_some_iff] at hs
  rw [h2, Option.bind_eq_some_iff] at hu
  obtain ⟨s1, hs1, hs2⟩ := hs
  obtain ⟨u1, hu1, hu2⟩ := hu
  exact (inv_reportBegin (inv_exec acts inv_init hs1 hu1) hs2 hu2).2

/-- A call never waits for another thread: whatever the others have done, its next step can be taken. -/
theorem C77_no_wait (s : LatState) (t v : Nat) (h : s.pcs t ≠ .idle) : (latStep s t).isSome ∨ (latFinish s t v).isSome := by
  unfold latStep latFinish
  cases hp : s.pcs t with
  | idle => exact absurd hp h
  | running o => cases o <;> right <;> dsimp only <;> (try split) <;> rfl
  | _ => left; dsimp only; repeat' split
         all_goals rfl

private def rank : LatPc → Nat
  | .idle => 0
  | .disabled => 3
  | .nulling => 2
  | .enabled _ => 6
  | .have _ _ => 4
  | .adding _ _ own => if own then 5 else 3
  | .storing _ own _ => if own then 4 else 2
  | .compare _ => 3
  | .moving _ => 2
  | .timer => 1
  | .running _ => 0

private theorem goto_pcs (s : LatState) (t t' : Nat) (pc : LatPc) : (s.goto t pc).pcs t' = if t' = t then pc else s.pcs t' := rfl
private theorem free_pcs (s : LatState) (i : Nat) : (s.free i).pcs = s.pcs := rfl
private theorem fail_pcs (s : LatState) : s.fail.pcs = s.pcs := rfl
private theorem fail_bad (s : LatState) : s.fail.bad = true := rfl

private theorem act_bad (s s' : LatState) (a : LatAct) (h : latAct s a = some s') (hb : s'.bad = false) : s.bad = false := by
  cases a <;>
    simp only [latAct, latBegin, latStep, latFinish, latStart, latStopFree, latStopNull, latReportBegin, latReportEnd, latAddItem] at h <;>
    grind [LatState.goto, LatState.free, LatState.fail]

private theorem act_other (s s' : LatState) (a : LatAct) (t : Nat) (h : latAct s a = some s') (h1 : a ≠ .begin t) (h2 : a ≠ .step t)
    (h3 : ∀ v, a ≠ .finish t v) : s'.pcs t = s.pcs t := by
  cases a <;>
    simp only [latAct, latBegin, latStep, latFinish, latStart, latStopFree, latStopNull, latReportBegin, latReportEnd, latAddItem] at h <;>
    grind [goto_pcs, free_pcs, fail_pcs]

private theorem step_rank (s s' : LatState) (t : Nat) (h : latStep s t = some s') (hb : s'.bad = false) :
    rank (s'.pcs t) + 1 ≤ rank (s.pcs t) := by
  simp only [latStep, latAddItem] at h
  grind [goto_pcs, free_pcs, fail_bad, rank]

private theorem rank_le (pc : LatPc) : rank pc ≤ 6 := by
  cases pc <;> simp only [rank] <;> (try split) <;> omega

/-- Timing adds a bounded number of steps to a call, whatever the other threads do: at most six. -/
theorem C77_bounded (acts : List LatAct) (s s' : LatState) (t : Nat) (hs : latExec s acts = some s') (hb : s'.bad = false)
    (h1 : LatAct.begin t ∉ acts) (h2 : ∀ v, LatAct.finish t v ∉ acts) : acts.count (.step t) ≤ 6 := by
  have key : ∀ (acts : List LatAct) (s : LatState), latExec s acts = some s' → LatAct.begin t ∉ acts → (∀ v, LatAct.finish t v ∉ acts) →
      s.bad = false ∧ rank (s'.pcs t) + acts.count (.step t) ≤ rank (s.pcs t) := by
    intro acts
    induction acts with
    | nil => intro s hs _ _; cases hs; exact ⟨hb, Nat.le_refl _⟩
    | cons a as ih =>
      intro s hs h1 h2
      simp only [latExec, Option.bind_eq_some_iff] at hs
      obtain ⟨s1, hs1, hs2⟩ := hs
      obtain ⟨hb1, hr⟩ := ih s1 hs2 (fun x => h1 (List.mem_cons_of_mem _ x)) fun v x => h2 v (List.mem_cons_of_mem _ x)
      refine ⟨act_bad s s1 a hs1 hb1, ?_⟩
      by_cases ha : a = .step t
      · subst ha
        have := step_rank s s1 t hs1 hb1
        rw [List.count_cons_self]
        omega
      · rw [List.count_cons_of_ne ha, ← act_other s s1 a t hs1 (fun x => h1 (x ▸ List.mem_cons_self)) ha
          fun v x => h2 v (x ▸ List.mem_cons_self)]
        exact hr
  have := (key acts s hs h1 h2).2
  have := rank_le (s.pcs t)
  omega

/-- The first call of a thread while the collection is on. -/
private def firstCall (t : Nat) : List LatAct := [.begin t, .step t, .step t, .step t, .step t, .step t, .step t]

/-- (negative) Starting the collection while a call is running: the call that saw it off clears the pointer of the one that sees it on,
which then frees the item that it has just registered; reading the latencies later uses it. -/
theorem C77_start_during_call : (latExec {} [.begin 2, .start, .begin 1, .step 1, .step 1, .step 1, .step 2, .step 2, .step 1, .step 1,
    .finish 1 9, .step 2, .finish 2 9, .reportBegin]).map (·.bad) = some true := by
  decide +kernel

/-- (negative) Stopping it while a call is running: the call uses the collector after it was freed. -/
theorem C77_stop_during_call : (latExec {} [.start, .begin 1, .stopFree, .stopNull, .step 1, .step 1]).map (·.bad) = some true := by
  decide +kernel

/-- (negative) A call that runs while the collection is stopped, another call is made, it is started and a third call is made: when the first
one returns, it uses its item after it was freed. -/
theorem C77_restart_during_call : (latExec {} (.start :: firstCall 1 ++ [.stopFree, .stopNull, .begin 2, .step 2, .step 2, .step 2,
    .finish 2 9, .start] ++ firstCall 3 ++ [.finish 3 9, .finish 1 9])).map (·.bad) = some true := by
  decide +kernel

/-- (negative) Reading the latencies during the first call of a function: the map is changed while it is walked. -/
theorem C77_report_during_call : (latExec {} [.start, .begin 1, .step 1, .reportBegin, .step 1]).map (·.bad) = some true := by
  decide +kernel

/-- (negative) A call that began before the collection was stopped is reported after it was started again. -/
theorem C77_old_call_reported : (latExec {} (.start :: firstCall 1 ++ [.stopFree, .stopNull, .start, .finish 1 5, .begin 2, .step 2, .step 2,
    .step 2, .step 2, .step 2, .finish 2 1, .reportBegin])).map (fun s => (s.bad, s.said)) = some (false, some (2, 6)) := by
  decide +kernel

/-- The hypotheses can be met: two threads that register at the same time, one of which finds the item of the other; the collection is
stopped, a call is made, it is started again, and another call is made. -/
def latSample : List LatAct :=
  [.start, .begin 1, .begin 2, .step 1, .step 2, .step 2, .step 1, .step 1, .step 2, .step 1, .step 1, .step 2, .step 2, .step 2,
   .finish 1 5, .finish 2 7]

example : (latExec {} (latSample ++ [.reportBegin])).map (·.said) = some (some (2, 12)) ∧
    (latUse {} (latSample ++ [.reportBegin])).map (fun u => (u.count, u.sum)) = some (2, 12) := by decide +kernel

example : (latExec {} (latSample ++ [.stopFree, .stopNull, .begin 4, .step 4, .step 4, .step 4, .finish 4 3, .start] ++ firstCall 5 ++
      [.finish 5 4, .reportBegin])).map (fun s => (s.said, s.bad, s.next)) = some (some (1, 4), false, 3) ∧
    (latUse {} (latSample ++ [.stopFree, .stopNull, .begin 4, .step 4, .step 4, .step 4, .finish 4 3, .start] ++ firstCall 5 ++
      [.finish 5 4, .reportBegin])).isSome = true := by decide +kernel

end Couchstore.Props
