import Verif.Lemmas.CouchCreate
import Verif.Spec.CouchCreate
import Mathlib.Data.List.Nodup

/-! C78: the program that fills the files of vbuckets with generated documents. -/

namespace Couchstore.Props

open Couchstore Couchstore.Create

private theorem mine_nodup (vbs : List VbKind) (fl : Nat) : (flusherVbuckets vbs fl).Nodup := List.nodup_range.filter _

private theorem mine_mem (vbs : List VbKind) (fl v : Nat) :
    v ∈ flusherVbuckets vbs fl ↔ (∃ kind, vbs[v]? = some kind ∧ kind ≠ .unmanaged) ∧ v % 8 = fl := by
  unfold flusherVbuckets
  rw [List.mem_filter, List.mem_range]
  constructor
  · rintro ⟨h1, h2⟩
    have h2 := of_decide_eq_true h2
    rw [List.getElem?_eq_getElem h1] at h2
    exact ⟨⟨_, List.getElem?_eq_getElem h1, fun e => h2.1 (by rw [e])⟩, h2.2⟩
  · rintro ⟨⟨kind, h1, h2⟩, h3⟩
    have hlt : v < vbs.length := by
      obtain ⟨h, _⟩ := List.getElem?_eq_some_iff.mp h1
      exact h
    exact ⟨hlt, decide_eq_true ⟨by rw [h1]; exact fun e => h2 (Option.some.inj e), h3⟩⟩

private theorem init_counts (vbs : List VbKind) (fl : Nat) :
    Counts (flusherVbuckets vbs fl) { locals := fun v => { kind := (vbs[v]?).getD .unmanaged }, managed := (flusherVbuckets vbs fl).length } := by
  unfold Counts
  dsimp only
  rw [List.filter_eq_self.mpr]
  intro v hv
  obtain ⟨⟨kind, h1, h2⟩, _⟩ := (mine_mem vbs fl v).mp hv
  simp [h1, h2]

private theorem keysOf_eq (p : CreateParams) (n v : Nat) : keysOf p v 0 n =
    ((List.range n).filter fun k => (clientHashCrc32 (createLogicalKey k)).toNat % p.vbc = v).map fun k => p.pre ++ createLogicalKey k := by
  unfold keysOf
  rw [List.range_eq_range']
  rfl

/-- Every file of a managed vbucket that can be used gets, in the order of the keys, exactly the documents that belong to it: in batches of at
most the number asked for, each of which is committed; then its state is saved with the number of its documents, and it is closed.  All of
them are counted as saved.  Whatever the other flushers do.  Missing: the keys start at 0 and not at the start key, see below. -/
theorem C78_files_partial (p : CreateParams) (vbs : List VbKind) (files : Nat → CreateFile) (others : Nat → Nat) (v : Nat) (kind : VbKind)
    (hp : 0 < p.perFlush) (hc : 0 < p.keyCount) (hv : vbs[v]? = some kind) (hm : kind ≠ .unmanaged) (got : Option Bool) (opened : List CreateCall)
    (hu : (p.reuse = false ∧ (files v).opens = true ∧ (files v).state = none ∧ got = none ∧ opened = [.openFile false, .readState]) ∨
      (p.reuse = true ∧ (files v).opens = true ∧ (files v).reopens = true ∧ (∃ r, (files v).state = some r ∧ got = some r) ∧
        opened = [.openFile true, .readState, .close, .openFile false])) :
    let docs := createDocs p (createRounds p) v
    let r := flusherRun p vbs files others (v % 8) v
    r.ub = false ∧ r.saved = docs.length ∧ (docs = [] → r.calls = []) ∧
      (docs ≠ [] → ∃ batches : List (List Bytes), batches.flatten = docs ∧ (∀ b ∈ batches, b ≠ [] ∧ b.length ≤ p.perFlush) ∧
        r.calls = opened ++ (batches.flatMap fun b => [.save b, .commit]) ++
          [.saveState (got.getD (kind ≠ .active)) docs.length, .commit, .close]) := by
  dsimp only
  have hmine : v ∈ flusherVbuckets vbs (v % 8) := (mine_mem _ _ _).mpr ⟨⟨kind, hv, hm⟩, rfl⟩
  have hl := loop_local p files _ (mine_nodup vbs (v % 8)) others v (createRounds p) 0 _ (init_counts vbs (v % 8))
  rw [if_pos hmine] at hl
  unfold flusherRun createDocs
  dsimp only at hl ⊢
  rw [hl, hv]
  simp only [Option.getD_some]
  rw [← keysOf_eq]
  generalize keysOf p v 0 (createRounds p) = ks
  by_cases hnil : ks = []
  · subst hnil
    simp only [List.take_nil, ite_self, List.foldl_nil, List.length_nil]
    exact ⟨trivial, trivial, fun _ => trivial, fun h => absurd rfl h⟩
  · obtain ⟨h1, h2⟩ := fold_usable hp hc hu hm ks hnil
    have fin : ∀ (docs : List Bytes) (l : VbLocal), docs ≠ [] → Filled p got kind opened docs l → l.ub = false ∧ l.saved = docs.length ∧
        (docs = [] → l.calls = []) ∧ (docs ≠ [] → ∃ batches : List (List Bytes), batches.flatten = docs ∧
          (∀ b ∈ batches, b ≠ [] ∧ b.length ≤ p.perFlush) ∧ l.calls = opened ++ (batches.flatMap fun b => [.save b, .commit]) ++
            [.saveState (got.getD (kind ≠ .active)) docs.length, .commit, .close]) :=
      fun docs l hd f => ⟨f.ub, f.saved, fun e => absurd e hd, fun _ => f.calls⟩
    by_cases hk : p.keysPerVb = true ∧ p.keyCount ≤ ks.length
    · obtain ⟨_, h4⟩ := h2 hk.1 hk.2
      rw [h4.handle, if_pos hk.1]
      refine fin _ _ (fun e => ?_) h4
      have := congrArg List.length e
      rw [List.length_take] at this
      simp only [List.length_nil] at this
      omega
    · have hlt : p.keysPerVb = false ∨ ks.length < p.keyCount := by
        cases hb : p.keysPerVb
        · exact .inl rfl
        · exact .inr (Nat.lt_of_not_le fun x => hk ⟨hb, x⟩)
      obtain ⟨bs, h, r⟩ := h1 hlt
      have hdocs : (if p.keysPerVb = true then ks.take p.keyCount else ks) = ks := by
        split
        · rename_i hb
          rcases hlt with x | x
          · rw [hb] at x; exact nomatch x
          · exact List.take_of_length_le (Nat.le_of_lt x)
        · rfl
      rw [hdocs, r.handle]
      exact fin _ _ hnil (running_close hp r)

/-- A file that exists is not written to unless it is to be reused, and with `--reuse` no file that does not exist, or that has no state; nor
one that cannot be opened. -/
theorem C78_unusable (p : CreateParams) (vbs : List VbKind) (files : Nat → CreateFile) (others : Nat → Nat) (v : Nat)
    (hu : (files v).opens = false ∨ (p.reuse = false ∧ (files v).state.isSome = true) ∨
      (p.reuse = true ∧ ((files v).state = none ∨ (files v).reopens = false))) :
    (flusherRun p vbs files others (v % 8) v).saved = 0 ∧ ∀ c ∈ (flusherRun p vbs files others (v % 8) v).calls,
      c = .openFile true ∨ c = .openFile false ∨ c = .readState ∨ c = .close := by
  have hl := loop_local p files _ (mine_nodup vbs (v % 8)) others v (createRounds p) 0 _ (init_counts vbs (v % 8))
  unfold flusherRun
  dsimp only at hl ⊢
  rw [hl]
  by_cases hm : v ∈ flusherVbuckets vbs (v % 8)
  · obtain ⟨⟨kind, h1, h2⟩, _⟩ := (mine_mem _ _ _).mp hm
    rw [if_pos hm, h1]
    simp only [Option.getD_some]
    have := fold_unusable hu h2 (keysOf p v 0 (createRounds p))
    rw [this.1]
    exact this.2
  · rw [if_neg hm]
    exact ⟨rfl, nofun⟩

/-- Nothing is done with the files of vbuckets that are not managed, or that belong to another flusher. -/
theorem C78_unmanaged (p : CreateParams) (vbs : List VbKind) (files : Nat → CreateFile) (others : Nat → Nat) (v fl : Nat)
    (h : vbs[v]? = some .unmanaged ∨ vbs.length ≤ v ∨ v % 8 ≠ fl) : (flusherRun p vbs files others fl v).calls = [] := by
  have hl := loop_local p files _ (mine_nodup vbs fl) others v (createRounds p) 0 _ (init_counts vbs fl)
  have hm : v ∉ flusherVbuckets vbs fl := by
    rw [mine_mem]
    rintro ⟨⟨kind, h1, h2⟩, h3⟩
    rcases h with h | h | h
    · rw [h] at h1; exact h2 (Option.some.inj h1).symm
    · rw [List.getElem?_eq_none h] at h1; exact nomatch h1
    · exact h h3
  rw [if_neg hm] at hl
  unfold flusherRun
  dsimp only at hl ⊢
  rw [hl]

/-- Every key belongs to exactly one vbucket, so every document is in the file of one, and no two documents have the same key. -/
theorem C78_once (p : CreateParams) (hv : 0 < p.vbc) (n k : Nat) (hk : k < n) (hn : n ≤ 2 ^ 63) (hs : p.keysPerVb = false) :
    (∃ v, v < p.vbc ∧ createKey p k ∈ createDocs p n v ∧ ∀ w, createKey p k ∈ createDocs p n w → w = v) ∧
      ∀ v, (createDocs p n v).Nodup := by
  have inj : ∀ a b, a < n → b < n → p.pre ++ createLogicalKey a = p.pre ++ createLogicalKey b → a = b := by
    intro a b ha hb he
    have := List.append_cancel_left he
    unfold createLogicalKey at this
    have := (List.cons.inj this).2
    have hpow : (2 : Nat) ^ 63 < 10 ^ 20 := by decide
    exact decDigits_inj 20 a b (by omega) (by omega) this
  have mem : ∀ w, createKey p k ∈ createDocs p n w ↔ (clientHashCrc32 (createLogicalKey k)).toNat % p.vbc = w := by
    intro w
    unfold createDocs createKey
    dsimp only
    rw [if_neg (by rw [hs]; nofun), List.mem_map]
    constructor
    · rintro ⟨a, ha, he⟩
      rw [List.mem_filter, List.mem_range] at ha
      have := inj a k ha.1 hk he
      subst this
      exact of_decide_eq_true ha.2
    · intro h
      exact ⟨k, List.mem_filter.mpr ⟨List.mem_range.mpr hk, decide_eq_true h⟩, rfl⟩
  refine ⟨⟨_, Nat.mod_lt (clientHashCrc32 (createLogicalKey k)).toNat hv, (mem _).mpr rfl, fun w hw => ((mem w).mp hw).symm⟩, fun v => ?_⟩
  unfold createDocs
  dsimp only
  rw [if_neg (by rw [hs]; nofun)]
  refine List.Nodup.map_on ?_ (List.nodup_range.filter _)
  intro a ha b hb he
  exact inj a b (List.mem_range.mp (List.mem_of_mem_filter ha)) (List.mem_range.mp (List.mem_of_mem_filter hb)) he

/-- As many keys are made as were asked for. -/
theorem C78_rounds (p : CreateParams) (h : p.keyCount + p.startKey < 2 ^ 64) (hs : p.keysPerVb = false) : createRounds p = p.keyCount := by
  unfold createRounds
  rw [if_neg (by rw [hs]; nofun), Nat.mod_eq_of_lt h]
  omega

private theorem list_ok (vbc : Nat) (args : List (Int × VbKind)) : ∀ (vbs : List VbKind) (n : Nat), vbs.length = vbc →
    (∀ a ∈ args, 0 ≤ a.1 ∧ a.1 < vbc) → (args.map (·.1)).Nodup →
    ∃ vbs', createList vbc args vbs n = .ok vbs' (n + args.length) ∧ vbs'.length = vbc ∧
      (∀ a ∈ args, vbs'[a.1.toNat]? = some a.2) ∧ ∀ v : Nat, (v : Int) ∉ args.map (·.1) → vbs'[v]? = vbs[v]? := by
  induction args with
  | nil => intro vbs n hl _ _; exact ⟨vbs, rfl, hl, nofun, fun _ _ => rfl⟩
  | cons a args ih =>
    intro vbs n hl hr hn
    rw [List.map_cons, List.nodup_cons] at hn
    have ha := hr a List.mem_cons_self
    obtain ⟨vbs', h1, h2, h3, h4⟩ := ih (vbs.set a.1.toNat a.2) (n + 1) (by rw [List.length_set]; exact hl)
      (fun b hb => hr b (List.mem_cons_of_mem _ hb)) hn.2
    refine ⟨vbs', ?_, h2, ?_, ?_⟩
    · obtain ⟨v, kind⟩ := a
      unfold createList
      dsimp only at ha h1 ⊢
      rw [if_pos ha.2, if_neg (by omega), h1, List.length_cons]
      congr 1
      omega
    · intro b hb
      rcases List.mem_cons.mp hb with rfl | hb
      · rw [h4 b.1.toNat (by rw [Int.toNat_of_nonneg ha.1]; exact hn.1), List.getElem?_set_self (by omega)]
      · exact h3 b hb
    · intro v hv
      rw [List.map_cons, List.mem_cons] at hv
      rw [h4 v fun x => hv (.inr x), List.getElem?_set_ne]
      intro e
      exact hv (.inl (by rw [← e, Int.toNat_of_nonneg ha.1]))

/-- The vbuckets of the command line, if they are different and there are at most 1024 vbuckets: exactly those that are listed are managed,
and they are counted.  Without a list all are. -/
theorem C78_list_partial (vbc : Nat) (hv : vbc ≤ 1024) (args : List (Int × VbKind)) (hr : ∀ a ∈ args, 0 ≤ a.1 ∧ a.1 < vbc)
    (hn : (args.map (·.1)).Nodup) (hne : args ≠ []) :
    ∃ vbs, createLoad vbc args = .ok vbs args.length ∧ vbs.length = vbc ∧ (∀ a ∈ args, vbs[a.1.toNat]? = some a.2) ∧
      ∀ v, v < vbc → (v : Int) ∉ args.map (·.1) → vbs[v]? = some .unmanaged := by
  have hl : (createVbuckets vbc).length = vbc := by
    unfold createVbuckets
    rw [List.length_append, List.length_take, List.length_replicate, List.length_replicate]
    omega
  obtain ⟨vbs, h1, h2, h3, h4⟩ := list_ok vbc args (createVbuckets vbc) 0 hl hr hn
  refine ⟨vbs, ?_, h2, h3, ?_⟩
  · unfold createLoad
    rw [if_neg hne, h1, Nat.zero_add]
  · intro v hlt hnl
    rw [h4 v hnl]
    unfold createVbuckets
    rw [List.getElem?_append_left (by rw [List.length_take, List.length_replicate]; omega), List.getElem?_take_of_lt hlt,
      List.getElem?_replicate, if_pos (by omega)]

theorem C78_all (vbc : Nat) : createLoad vbc [] = .ok (List.replicate vbc .active) vbc := rfl

/-- (negative) The start key makes no difference to the documents. -/
theorem C78_start_key_ignored (p : CreateParams) (start v : Nat) (h : p.keyCount + start < 2 ^ 64) (hs : p.keysPerVb = false) :
    createDocs { p with startKey := start } (createRounds { p with startKey := start }) v =
      createDocs { p with startKey := 0 } (createRounds { p with startKey := 0 }) v := by
  rw [C78_rounds { p with startKey := start } h hs, C78_rounds { p with startKey := 0 } (by dsimp only; omega) hs]
  rfl

/-- (negative) With a number of keys for each vbucket and a start key no document is made. -/
theorem C78_no_keys (p : CreateParams) (hs : p.keysPerVb = true) (h : 0 < p.startKey) (h' : p.startKey < 2 ^ 64) : createRounds p = 0 := by
  unfold createRounds
  rw [if_pos hs]
  omega

/-- (negative) A vbucket on the command line that does not exist: the program does not end. -/
theorem C78_endless (vbc : Nat) (v : Int) (kind : VbKind) (h : (vbc : Int) ≤ v) (rest : List (Int × VbKind)) :
    createLoad vbc ((v, kind) :: rest) = .endless := by
  unfold createLoad createList
  rw [if_neg (by nofun), if_neg (by omega)]

/-- (negative) With more than 1024 vbuckets those from 1024 on are filled although they are not listed, and are not counted. -/
theorem C78_unlisted_managed : ∃ vbs, createLoad 1026 [(3, .replica)] = .ok vbs 1 ∧ vbs[1024]? = some .active ∧ vbs[1025]? = some .active := by
  refine ⟨_, rfl, ?_, ?_⟩ <;> decide +kernel

/-- (negative) The program may notify a flusher that does not wait yet; then both wait, and neither goes on. -/
theorem C78_lost_wakeup : ∃ s, wakeRun {} [true, false, false, true] = some s ∧ s.flusher = 2 ∧ s.main = 2 ∧ ∀ b, wakeStep s b = none :=
  ⟨_, rfl, rfl, rfl, by intro b; cases b <;> rfl⟩

/-- Otherwise it works: once the program has notified, a flusher that waited runs. -/
theorem C78_wakeup (bs : List Bool) (s s' : WakeState) (h : wakeRun {} bs = some s) (hm : s.main = 1) (hf : s.flusher = 2)
    (h' : wakeStep s false = some s') : s'.flusher = 3 ∧ s.started = true := by
  have key : ∀ (bs : List Bool) (s0 : WakeState), (0 < s0.flusher → s0.started = true) → wakeRun s0 bs = some s → 0 < s.flusher → s.started = true := by
    intro bs
    induction bs with
    | nil => intro s0 h0 h; cases h; exact h0
    | cons b bs ih =>
      intro s0 h0 h
      simp only [wakeRun, Option.bind_eq_some_iff] at h
      obtain ⟨s1, h1, h2⟩ := h
      refine ih s1 ?_ h2
      unfold wakeStep at h1
      split at h1
      · split at h1
        · cases h1; exact fun _ => rfl
        · rename_i hf1
          cases h1
          exact fun _ => h0 (by omega)
        · cases h1
      · split at h1
        · split at h1 <;> (cases h1; exact h0)
        · cases h1
          dsimp only
          split
          · rename_i h2
            exact fun _ => h0 (by omega)
          · exact h0
        · cases h1
  refine ⟨?_, key bs {} nofun h (by omega)⟩
  unfold wakeStep at h'
  simp only [hm, hf] at h'
  cases h'
  rfl

/-- The hypotheses can be met: five keys for two vbuckets, of which the file of the second one exists. -/
def createSample : CreateParams := { vbc := 2, keyCount := 5, perFlush := 2 }

def createSampleFiles : Nat → CreateFile := fun v => { state := if v = 1 then some true else none }

example : (createDocs createSample 5 0).length = 3 ∧ (createDocs createSample 5 1).length = 2 ∧
    (flusherRun createSample [.active, .replica] createSampleFiles (fun _ => 1) 0 0).calls.length = 9 ∧
    (flusherRun createSample [.active, .replica] createSampleFiles (fun _ => 1) 1 1).calls = [.openFile false, .readState, .close] ∧
    (flusherRun { createSample with reuse := true } [.active, .replica] createSampleFiles (fun _ => 1) 1 1).calls.length = 9 := by
  decide +kernel

example := C78_files_partial createSample [.active, .replica] createSampleFiles (fun _ => 1) 0 .active (by decide) (by decide) rfl nofun none _
  (.inl ⟨rfl, rfl, rfl, rfl, rfl⟩)
example := C78_unusable createSample [.active, .replica] createSampleFiles (fun _ => 1) 1 (.inr (.inl ⟨rfl, rfl⟩))
example := C78_once createSample (by decide) 5 3 (by decide) (by decide) rfl
example := C78_list_partial 16 (by decide) [(3, .active), (7, .replica)] (by decide) (by decide) (by decide)
example := C78_wakeup [true, true, false] _ _ rfl rfl rfl rfl

end Couchstore.Props
