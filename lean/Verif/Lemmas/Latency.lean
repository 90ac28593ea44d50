import Verif.Spec.Latency

/-! Lemmas for the collection of latencies. -/

namespace Couchstore.Lat

open Couchstore

/-- The item that a thread has made and not yet given away. -/
def tmpOf : LatPc → Option Nat
  | .adding _ i true => some i
  | .storing i true _ => some i
  | .compare i => some i
  | .moving i => some i
  | _ => none

def PcOk (gen : Nat) (ptr entry : Option Nat) (on : Bool) : LatPc → Prop
  | .idle => True
  | .disabled => on = false
  | .nulling => on = false
  | .enabled c => on = true ∧ c = gen
  | .have c i => on = true ∧ c = gen ∧ ptr = some i
  | .adding c i false => on = true ∧ c = gen ∧ ptr = some i
  | .adding c i true => on = true ∧ c = gen ∧ entry ≠ some i ∧ (entry = none → ptr = none)
  | .storing _ _ r => on = true ∧ entry = some r
  | .compare _ => on = true ∧ ptr = entry ∧ entry ≠ none
  | .moving i => on = true ∧ entry = some i ∧ ptr = some i
  | .timer => (on = true → ptr = entry ∧ entry ≠ none) ∧ (on = false → ptr = none)
  | .running o => (on = true → o = entry ∧ entry ≠ none) ∧ (on = false → o = none)

structure Inv (s : LatState) (u : LatUse) : Prop where
  good : s.bad = false
  idle : ∀ t, t ∉ u.active → s.pcs t = .idle
  act : ∀ t, t ∈ u.active → s.pcs t ≠ .idle
  nd : u.active.Nodup
  on : u.on = true → s.coll = true ∧ s.live = true ∧ s.stopping = false ∧ s.walking = u.busy
  off : u.on = false → s.entry = none ∧ s.walking = false ∧ s.coll = u.busy ∧ s.stopping = u.busy
  busy : u.busy = true → u.active = []
  ptr : ∀ i, s.ptr = some i → s.entry = some i ∨ (s.entry = none ∧ s.owner = some i ∧
    (s.items i).registered = false ∧ (s.items i).count = 0 ∧ (s.items i).sum = 0)
  owner : ∀ o, s.owner = some o → o < s.next ∧ (s.items o).alive = true
  entry : ∀ e, s.entry = some e → e < s.next ∧ (s.items e).alive = true ∧ (s.items e).registered = true ∧
    (s.owner = some e ∨ ∃ t, tmpOf (s.pcs t) = some e) ∧ (s.items e).count = u.count ∧ (s.items e).sum = u.sum
  empty : u.on = true → s.entry = none → u.count = 0 ∧ u.sum = 0
  tmp : ∀ t i, tmpOf (s.pcs t) = some i → i < s.next ∧ (s.items i).alive = true ∧ s.owner ≠ some i ∧
    (s.entry ≠ some i → (s.items i).registered = false ∧ (s.items i).count = 0 ∧ (s.items i).sum = 0)
  inj : ∀ t t' i, tmpOf (s.pcs t) = some i → tmpOf (s.pcs t') = some i → t = t'
  pc : ∀ t, PcOk s.gen s.ptr s.entry u.on (s.pcs t)

theorem inv_init : Inv {} {} := by
  constructor <;> simp [tmpOf, PcOk]

/-- Steps that change nothing but where the thread is. -/
theorem inv_goto {s : LatState} {u : LatUse} (h : Inv s u) (t : Nat) (pc : LatPc) (ht : t ∈ u.active) (hp : PcOk s.gen s.ptr s.entry u.on pc)
    (hn : pc ≠ .idle) (htmp : tmpOf pc = tmpOf (s.pcs t)) : Inv (s.goto t pc) u := by
  have key : ∀ t', tmpOf ((s.goto t pc).pcs t') = tmpOf (s.pcs t') := by
    intro t'
    simp only [LatState.goto, latSet]
    split
    · rename_i e; rw [e, htmp]
    · rfl
  refine ⟨h.good, ?_, ?_, h.nd, h.on, h.off, h.busy, h.ptr, h.owner, ?_, h.empty, ?_, ?_, ?_⟩
  · intro t' h'
    have : t' ≠ t := fun e => h' (e ▸ ht)
    simp only [LatState.goto, latSet, if_neg this]
    exact h.idle t' h'
  · intro t' h'
    simp only [LatState.goto, latSet]
    split
    · exact hn
    · exact h.act t' h'
  · intro e he
    obtain ⟨h1, h2, h3, h4, h5⟩ := h.entry e he
    exact ⟨h1, h2, h3, h4.imp id fun ⟨t', x⟩ => ⟨t', (key t').trans x⟩, h5⟩
  · intro t' i hi
    rw [key] at hi
    exact h.tmp t' i hi
  · intro t1 t2 i h1 h2
    rw [key] at h1 h2
    exact h.inj t1 t2 i h1 h2
  · intro t'
    simp only [LatState.goto, latSet]
    split
    · exact hp
    · exact h.pc t'

theorem inv_begin {s s' : LatState} {u u' : LatUse} (h : Inv s u) (t : Nat) (hs : latBegin s t = some s') (hu : latUse1 u (.begin t) = some u') :
    Inv s' u' := by
  simp only [latBegin] at hs
  simp only [latUse1] at hu
  split at hs
  · rename_i hi
    split at hu
    · cases hu
    · rename_i hb
      cases hs
      cases hu
      have hna : t ∉ u.active := fun x => h.act t x hi
      cases h
      constructor <;> (try simp only [LatState.goto, latSet]) <;> grind [tmpOf, PcOk]
  · cases hs

theorem inv_finish {s s' : LatState} {u u' : LatUse} (h : Inv s u) (t v : Nat) (hs : latFinish s t v = some s')
    (hu : latUse1 u (.finish t v) = some u') : Inv s' u' := by
  simp only [latFinish] at hs
  simp only [latUse1] at hu
  cases hu
  have hna : ∀ t', t' ∈ u.active.erase t ↔ t' ≠ t ∧ t' ∈ u.active := fun t' => h.nd.mem_erase_iff
  have hnd : (u.active.erase t).Nodup := h.nd.erase t
  have hpc := h.pc t
  split at hs
  · rename_i hr
    cases hs
    cases h
    constructor <;> (try simp only [LatState.goto, latSet]) <;> grind [tmpOf, PcOk]
  · rename_i i hr
    split at hs
    · exfalso
      cases h
      grind [tmpOf, PcOk]
    · cases hs
      cases h
      constructor <;> (try simp only [LatState.goto, latSet]) <;> grind [tmpOf, PcOk]
  · cases hs

theorem active_of {s : LatState} {u : LatUse} (h : Inv s u) {t : Nat} (hp : s.pcs t ≠ .idle) : t ∈ u.active := by
  by_cases ht : t ∈ u.active
  · exact ht
  · exact absurd (h.idle t ht) hp

theorem inv_nulling {s : LatState} {u : LatUse} (h : Inv s u) (t : Nat)  (ht : t ∈ u.active) (hr : s.pcs t = .nulling) :
    Inv ({ s with ptr := none }.goto t .timer) u := by
  have hpc := h.pc t
  have hbz := h.busy
  have htm := h.tmp t
  rw [hr] at hpc
  have hpc' : ∀ t', PcOk ({ s with ptr := none }).gen ({ s with ptr := none }).ptr ({ s with ptr := none }).entry u.on (({ s with ptr := none }.goto t .timer).pcs t') := by
    intro t'
    have hptr := h.ptr
    have hent := h.entry
    have hof := h.off
    simp only [LatState.goto, LatState.free, latSet]
    split
    · grind [tmpOf, PcOk]
    · have h1 := h.pc t'
      have h2 := h.tmp t'
      have h3 := h.inj t' t
      generalize s.pcs t' = q at h1 h2 h3 ⊢
      cases q with
      | adding c' i' own' => cases own' <;> grind [tmpOf, PcOk]
      | storing i' own' r' => cases own' <;> grind [tmpOf, PcOk]
      | _ => grind [tmpOf, PcOk]
  cases h
  refine ⟨?_, ?_, ?_, ?_, ?_, ?_, ?_, ?_, ?_, ?_, ?_, ?_, ?_, hpc'⟩ <;> clear hpc' <;> (try simp only [LatState.goto, LatState.free, latSet]) <;> grind [tmpOf, PcOk]

theorem inv_fresh {s : LatState} {u : LatUse} (h : Inv s u) (t : Nat) (c : Nat) (ht : t ∈ u.active) (hr : s.pcs t = .enabled c) (hn : s.ptr = none) :
    Inv ({ s with items := latSet s.items s.next {}, next := s.next + 1 }.goto t (.adding c s.next true)) u := by
  have hpc := h.pc t
  have hbz := h.busy
  have htm := h.tmp t
  rw [hr] at hpc
  have hpc' : ∀ t', PcOk ({ s with items := latSet s.items s.next {}, next := s.next + 1 }).gen ({ s with items := latSet s.items s.next {}, next := s.next + 1 }).ptr ({ s with items := latSet s.items s.next {}, next := s.next + 1 }).entry u.on (({ s with items := latSet s.items s.next {}, next := s.next + 1 }.goto t (.adding c s.next true)).pcs t') := by
    intro t'
    have hptr := h.ptr
    have hent := h.entry
    have hof := h.off
    simp only [LatState.goto, LatState.free, latSet]
    split
    · grind [tmpOf, PcOk]
    · have h1 := h.pc t'
      have h2 := h.tmp t'
      have h3 := h.inj t' t
      generalize s.pcs t' = q at h1 h2 h3 ⊢
      cases q with
      | adding c' i' own' => cases own' <;> grind [tmpOf, PcOk]
      | storing i' own' r' => cases own' <;> grind [tmpOf, PcOk]
      | _ => grind [tmpOf, PcOk]
  cases h
  refine ⟨?_, ?_, ?_, ?_, ?_, ?_, ?_, ?_, ?_, ?_, ?_, ?_, ?_, hpc'⟩ <;> clear hpc' <;> (try simp only [LatState.goto, LatState.free, latSet]) <;> grind [tmpOf, PcOk]

theorem inv_register_own {s : LatState} {u : LatUse} (h : Inv s u) (t : Nat) (c i : Nat) (ht : t ∈ u.active) (hr : s.pcs t = .adding c i true) (hn : s.entry = none) :
    Inv ({ s with entry := some i, items := latSet s.items i { s.items i with registered := true } }.goto t (.storing i true i)) u := by
  have hpc := h.pc t
  have hbz := h.busy
  have htm := h.tmp t
  rw [hr] at hpc
  have hpc' : ∀ t', PcOk ({ s with entry := some i, items := latSet s.items i { s.items i with registered := true } }).gen ({ s with entry := some i, items := latSet s.items i { s.items i with registered := true } }).ptr ({ s with entry := some i, items := latSet s.items i { s.items i with registered := true } }).entry u.on (({ s with entry := some i, items := latSet s.items i { s.items i with registered := true } }.goto t (.storing i true i)).pcs t') := by
    intro t'
    have hptr := h.ptr
    have hent := h.entry
    have hof := h.off
    simp only [LatState.goto, LatState.free, latSet]
    split
    · grind [tmpOf, PcOk]
    · have h1 := h.pc t'
      have h2 := h.tmp t'
      have h3 := h.inj t' t
      generalize s.pcs t' = q at h1 h2 h3 ⊢
      cases q with
      | adding c' i' own' => cases own' <;> grind [tmpOf, PcOk]
      | storing i' own' r' => cases own' <;> grind [tmpOf, PcOk]
      | _ => grind [tmpOf, PcOk]
  cases h
  refine ⟨?_, ?_, ?_, ?_, ?_, ?_, ?_, ?_, ?_, ?_, ?_, ?_, ?_, hpc'⟩ <;> clear hpc' <;> (try simp only [LatState.goto, LatState.free, latSet]) <;> grind [tmpOf, PcOk]

theorem inv_register {s : LatState} {u : LatUse} (h : Inv s u) (t : Nat) (c i : Nat) (ht : t ∈ u.active) (hr : s.pcs t = .adding c i false) (hn : s.entry = none) :
    Inv ({ s with entry := some i, items := latSet s.items i { s.items i with registered := true } }.goto t (.storing i false i)) u := by
  have hpc := h.pc t
  have hbz := h.busy
  have htm := h.tmp t
  rw [hr] at hpc
  have hpc' : ∀ t', PcOk ({ s with entry := some i, items := latSet s.items i { s.items i with registered := true } }).gen ({ s with entry := some i, items := latSet s.items i { s.items i with registered := true } }).ptr ({ s with entry := some i, items := latSet s.items i { s.items i with registered := true } }).entry u.on (({ s with entry := some i, items := latSet s.items i { s.items i with registered := true } }.goto t (.storing i false i)).pcs t') := by
    intro t'
    have hptr := h.ptr
    have hent := h.entry
    have hof := h.off
    simp only [LatState.goto, LatState.free, latSet]
    split
    · grind [tmpOf, PcOk]
    · have h1 := h.pc t'
      have h2 := h.tmp t'
      have h3 := h.inj t' t
      generalize s.pcs t' = q at h1 h2 h3 ⊢
      cases q with
      | adding c' i' own' => cases own' <;> grind [tmpOf, PcOk]
      | storing i' own' r' => cases own' <;> grind [tmpOf, PcOk]
      | _ => grind [tmpOf, PcOk]
  cases h
  refine ⟨?_, ?_, ?_, ?_, ?_, ?_, ?_, ?_, ?_, ?_, ?_, ?_, ?_, hpc'⟩ <;> clear hpc' <;> (try simp only [LatState.goto, LatState.free, latSet]) <;> grind [tmpOf, PcOk]

theorem inv_store_own {s : LatState} {u : LatUse} (h : Inv s u) (t : Nat) (i r : Nat) (ht : t ∈ u.active) (hr : s.pcs t = .storing i true r) :
    Inv ({ s with ptr := some r }.goto t (.compare i)) u := by
  have hpc := h.pc t
  have hbz := h.busy
  have htm := h.tmp t
  rw [hr] at hpc
  have hpc' : ∀ t', PcOk ({ s with ptr := some r }).gen ({ s with ptr := some r }).ptr ({ s with ptr := some r }).entry u.on (({ s with ptr := some r }.goto t (.compare i)).pcs t') := by
    intro t'
    have hptr := h.ptr
    have hent := h.entry
    have hof := h.off
    simp only [LatState.goto, LatState.free, latSet]
    split
    · grind [tmpOf, PcOk]
    · have h1 := h.pc t'
      have h2 := h.tmp t'
      have h3 := h.inj t' t
      generalize s.pcs t' = q at h1 h2 h3 ⊢
      cases q with
      | adding c' i' own' => cases own' <;> grind [tmpOf, PcOk]
      | storing i' own' r' => cases own' <;> grind [tmpOf, PcOk]
      | _ => grind [tmpOf, PcOk]
  cases h
  refine ⟨?_, ?_, ?_, ?_, ?_, ?_, ?_, ?_, ?_, ?_, ?_, ?_, ?_, hpc'⟩ <;> clear hpc' <;> (try simp only [LatState.goto, LatState.free, latSet]) <;> grind [tmpOf, PcOk]

theorem inv_store {s : LatState} {u : LatUse} (h : Inv s u) (t : Nat) (i r : Nat) (ht : t ∈ u.active) (hr : s.pcs t = .storing i false r) :
    Inv ({ s with ptr := some r }.goto t .timer) u := by
  have hpc := h.pc t
  have hbz := h.busy
  have htm := h.tmp t
  rw [hr] at hpc
  have hpc' : ∀ t', PcOk ({ s with ptr := some r }).gen ({ s with ptr := some r }).ptr ({ s with ptr := some r }).entry u.on (({ s with ptr := some r }.goto t .timer).pcs t') := by
    intro t'
    have hptr := h.ptr
    have hent := h.entry
    have hof := h.off
    simp only [LatState.goto, LatState.free, latSet]
    split
    · grind [tmpOf, PcOk]
    · have h1 := h.pc t'
      have h2 := h.tmp t'
      have h3 := h.inj t' t
      generalize s.pcs t' = q at h1 h2 h3 ⊢
      cases q with
      | adding c' i' own' => cases own' <;> grind [tmpOf, PcOk]
      | storing i' own' r' => cases own' <;> grind [tmpOf, PcOk]
      | _ => grind [tmpOf, PcOk]
  cases h
  refine ⟨?_, ?_, ?_, ?_, ?_, ?_, ?_, ?_, ?_, ?_, ?_, ?_, ?_, hpc'⟩ <;> clear hpc' <;> (try simp only [LatState.goto, LatState.free, latSet]) <;> grind [tmpOf, PcOk]

theorem inv_discard {s : LatState} {u : LatUse} (h : Inv s u) (t : Nat) (i : Nat) (ht : t ∈ u.active) (hr : s.pcs t = .compare i) (hp : s.ptr ≠ some i) :
    Inv ((s.free i).goto t .timer) u := by
  have hpc := h.pc t
  have hbz := h.busy
  have htm := h.tmp t
  rw [hr] at hpc
  have hpc' : ∀ t', PcOk ((s.free i)).gen ((s.free i)).ptr ((s.free i)).entry u.on (((s.free i).goto t .timer).pcs t') := by
    intro t'
    have hptr := h.ptr
    have hent := h.entry
    have hof := h.off
    simp only [LatState.goto, LatState.free, latSet]
    split
    · grind [tmpOf, PcOk]
    · have h1 := h.pc t'
      have h2 := h.tmp t'
      have h3 := h.inj t' t
      generalize s.pcs t' = q at h1 h2 h3 ⊢
      cases q with
      | adding c' i' own' => cases own' <;> grind [tmpOf, PcOk]
      | storing i' own' r' => cases own' <;> grind [tmpOf, PcOk]
      | _ => grind [tmpOf, PcOk]
  cases h
  refine ⟨?_, ?_, ?_, ?_, ?_, ?_, ?_, ?_, ?_, ?_, ?_, ?_, ?_, hpc'⟩ <;> clear hpc' <;> (try simp only [LatState.goto, LatState.free, latSet]) <;> grind [tmpOf, PcOk]

theorem inv_move {s : LatState} {u : LatUse} (h : Inv s u) (t : Nat) (i o : Nat) (ht : t ∈ u.active) (hr : s.pcs t = .moving i) (ho : s.owner = some o) :
    Inv ({ s.free o with owner := some i }.goto t .timer) u := by
  have hpc := h.pc t
  have hbz := h.busy
  have htm := h.tmp t
  rw [hr] at hpc
  have hpc' : ∀ t', PcOk ({ s.free o with owner := some i }).gen ({ s.free o with owner := some i }).ptr ({ s.free o with owner := some i }).entry u.on (({ s.free o with owner := some i }.goto t .timer).pcs t') := by
    intro t'
    have hptr := h.ptr
    have hent := h.entry
    have hof := h.off
    simp only [LatState.goto, LatState.free, latSet]
    split
    · grind [tmpOf, PcOk]
    · have h1 := h.pc t'
      have h2 := h.tmp t'
      have h3 := h.inj t' t
      generalize s.pcs t' = q at h1 h2 h3 ⊢
      cases q with
      | adding c' i' own' => cases own' <;> grind [tmpOf, PcOk]
      | storing i' own' r' => cases own' <;> grind [tmpOf, PcOk]
      | _ => grind [tmpOf, PcOk]
  cases h
  refine ⟨?_, ?_, ?_, ?_, ?_, ?_, ?_, ?_, ?_, ?_, ?_, ?_, ?_, hpc'⟩ <;> clear hpc' <;> (try simp only [LatState.goto, LatState.free, latSet]) <;> grind [tmpOf, PcOk]

theorem inv_move_first {s : LatState} {u : LatUse} (h : Inv s u) (t : Nat) (i : Nat) (ht : t ∈ u.active) (hr : s.pcs t = .moving i) (ho : s.owner = none) :
    Inv ({ s with owner := some i }.goto t .timer) u := by
  have hpc := h.pc t
  have hbz := h.busy
  have htm := h.tmp t
  rw [hr] at hpc
  have hpc' : ∀ t', PcOk ({ s with owner := some i }).gen ({ s with owner := some i }).ptr ({ s with owner := some i }).entry u.on (({ s with owner := some i }.goto t .timer).pcs t') := by
    intro t'
    have hptr := h.ptr
    have hent := h.entry
    have hof := h.off
    simp only [LatState.goto, LatState.free, latSet]
    split
    · grind [tmpOf, PcOk]
    · have h1 := h.pc t'
      have h2 := h.tmp t'
      have h3 := h.inj t' t
      generalize s.pcs t' = q at h1 h2 h3 ⊢
      cases q with
      | adding c' i' own' => cases own' <;> grind [tmpOf, PcOk]
      | storing i' own' r' => cases own' <;> grind [tmpOf, PcOk]
      | _ => grind [tmpOf, PcOk]
  cases h
  refine ⟨?_, ?_, ?_, ?_, ?_, ?_, ?_, ?_, ?_, ?_, ?_, ?_, ?_, hpc'⟩ <;> clear hpc' <;> (try simp only [LatState.goto, LatState.free, latSet]) <;> grind [tmpOf, PcOk]

theorem inv_step {s s' : LatState} {u : LatUse} (h : Inv s u) (t : Nat) (hs : latStep s t = some s') : Inv s' u := by
  have hpc := h.pc t
  have hact : s.pcs t ≠ .idle → t ∈ u.active := active_of h
  simp only [latStep] at hs
  split at hs
  · cases hs
  · rename_i hr
    cases hs
    refine inv_goto h t _ (hact (by rw [hr]; nofun)) ?_ (by split <;> nofun) ?_
    · rw [hr] at hpc
      cases hptr : s.ptr <;> simp_all [PcOk]
    · rw [hr]; split <;> rfl
  · rename_i hr
    cases hs
    exact inv_nulling h t (hact (by rw [hr]; nofun)) hr
  · rename_i c hr
    have ht := hact (by rw [hr]; nofun)
    split at hs
    · rename_i hn
      cases hs
      exact inv_fresh h t c ht hr hn
    · rename_i i hn
      cases hs
      refine inv_goto h t _ ht ?_ nofun (by rw [hr]; rfl)
      rw [hr] at hpc
      exact ⟨hpc.1, hpc.2, hn⟩
  · rename_i c i hr
    have ht := hact (by rw [hr]; nofun)
    split at hs
    · exfalso
      cases h
      grind [tmpOf, PcOk]
    · cases hs
      refine inv_goto h t _ ht ?_ (by split <;> nofun) (by rw [hr]; split <;> rfl)
      cases h
      grind [tmpOf, PcOk]
  · rename_i c i own hr
    have ht := hact (by rw [hr]; nofun)
    cases hs
    unfold latAddItem
    split
    · exfalso
      cases own <;> cases h <;> grind [tmpOf, PcOk]
    · split
      · rename_i j hj
        refine inv_goto h t _ ht ?_ nofun ?_
        · cases own <;> cases h <;> grind [tmpOf, PcOk]
        · rw [hr]; cases own <;> rfl
      · split
        · exfalso
          cases own <;> cases h <;> grind [tmpOf, PcOk]
        · cases own
          · exact inv_register h t c i ht hr ‹_›
          · exact inv_register_own h t c i ht hr ‹_›
  · rename_i i own r hr
    have ht := hact (by rw [hr]; nofun)
    cases hs
    cases own
    · exact inv_store h t i r ht hr
    · exact inv_store_own h t i r ht hr
  · rename_i i hr
    have ht := hact (by rw [hr]; nofun)
    split at hs
    · rename_i hp
      cases hs
      refine inv_goto h t _ ht ?_ nofun (by rw [hr]; rfl)
      rw [hr] at hpc
      exact ⟨hpc.1, hpc.2.1 ▸ hp, hp⟩
    · rename_i hp
      cases hs
      exact inv_discard h t i ht hr hp
  · rename_i i hr
    have ht := hact (by rw [hr]; nofun)
    split at hs
    · rename_i o ho
      cases hs
      exact inv_move h t i o ht hr ho
    · rename_i ho
      cases hs
      exact inv_move_first h t i ht hr ho
  · rename_i hr
    have ht := hact (by rw [hr]; nofun)
    cases hs
    refine inv_goto h t _ ht ?_ nofun (by rw [hr]; rfl)
    rw [hr] at hpc
    exact hpc
  · cases hs

theorem all_idle {s : LatState} {u : LatUse} (h : Inv s u) (ha : u.active = []) (t : Nat) : s.pcs t = .idle :=
  h.idle t (by rw [ha]; exact List.not_mem_nil)

theorem inv_start {s : LatState} {u u' : LatUse} (h : Inv s u) (hu : latUse1 u .start = some u') : Inv (latStart s) u' := by
  simp only [latUse1] at hu
  split at hu
  · cases hu
  · rename_i hq
    have hid := all_idle h (by grind)
    cases hu
    unfold latStart
    cases hon : u.on
    · have hoff := h.off hon
      cases h
      split <;> constructor <;> grind [tmpOf, PcOk]
    · have hon' := h.on hon
      rw [if_pos hon'.1, if_pos rfl]
      exact h

theorem inv_stopFree {s s' : LatState} {u u' : LatUse} (h : Inv s u) (hs : latStopFree s = some s') (hu : latUse1 u .stopFree = some u') :
    Inv s' u' := by
  simp only [latUse1] at hu
  simp only [latStopFree] at hs
  split at hu
  · cases hu
  · rename_i hq
    have hid := all_idle h (by grind)
    cases hu
    split at hs
    · cases hs
    · split at hs
      · exfalso
        cases h
        grind
      · split at hs
        · cases hs
          cases h
          constructor <;> grind [tmpOf, PcOk]
        · rename_i e he
          split at hs
          · exfalso
            cases h
            grind
          · cases hs
            cases h
            constructor <;> (try simp only [latSet]) <;> grind [tmpOf, PcOk]

theorem inv_stopNull {s s' : LatState} {u u' : LatUse} (h : Inv s u) (hs : latStopNull s = some s') (hu : latUse1 u .stopNull = some u') :
    Inv s' u' := by
  simp only [latUse1] at hu
  simp only [latStopNull] at hs
  split at hs
  · cases hs
    cases hu
    cases h
    constructor <;> grind [tmpOf, PcOk]
  · cases hs

theorem inv_reportBegin {s s' : LatState} {u u' : LatUse} (h : Inv s u) (hs : latReportBegin s = some s')
    (hu : latUse1 u .reportBegin = some u') : Inv s' u' ∧ s'.said = if u'.sum = 0 then none else some (u'.count, u'.sum) := by
  simp only [latUse1] at hu
  simp only [latReportBegin] at hs
  split at hu
  · cases hu
  · rename_i hq
    have hid := all_idle h (by grind)
    cases hu
    split at hs
    · cases hs
    · split at hs
      · exfalso
        cases h
        grind
      · split at hs
        · cases hs
          cases h
          exact ⟨by constructor <;> grind [tmpOf, PcOk], by grind⟩
        · rename_i e he
          split at hs
          · exfalso
            cases h
            grind
          · cases hs
            cases h
            exact ⟨by constructor <;> grind [tmpOf, PcOk], by grind⟩

theorem inv_reportEnd {s s' : LatState} {u u' : LatUse} (h : Inv s u) (hs : latReportEnd s = some s') (hu : latUse1 u .reportEnd = some u') :
    Inv s' u' := by
  simp only [latUse1] at hu
  simp only [latReportEnd] at hs
  split at hs
  · cases hs
    cases hu
    cases h
    constructor <;> grind [tmpOf, PcOk]
  · cases hs

theorem inv_act {s s' : LatState} {u u' : LatUse} (h : Inv s u) (a : LatAct) (hs : latAct s a = some s') (hu : latUse1 u a = some u') :
    Inv s' u' := by
  cases a with
  | begin t => exact inv_begin h t hs hu
  | step t => cases hu; exact inv_step h t hs
  | finish t v => exact inv_finish h t v hs hu
  | start => cases hs; exact inv_start h hu
  | stopFree => exact inv_stopFree h hs hu
  | stopNull => exact inv_stopNull h hs hu
  | reportBegin => exact (inv_reportBegin h hs hu).1
  | reportEnd => exact inv_reportEnd h hs hu

theorem inv_exec (as : List LatAct) : ∀ {s s' : LatState} {u u' : LatUse}, Inv s u → latExec s as = some s' → latUse u as = some u' →
    Inv s' u' := by
  induction as with
  | nil => intro s s' u u' h hs hu; cases hs; cases hu; exact h
  | cons a as ih =>
    intro s s' u u' h hs hu
    simp only [latExec, latUse, Option.bind_eq_some_iff] at hs hu
    obtain ⟨s1, hs1, hs2⟩ := hs
    obtain ⟨u1, hu1, hu2⟩ := hu
    exact ih (inv_act h a hs1 hu1) hs2 hu2

end Couchstore.Lat
