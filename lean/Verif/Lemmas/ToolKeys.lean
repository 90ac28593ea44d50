import Verif.Spec.ToolKeys
import Verif.Spec.History

/-! Lemmas for the keys of the programs. -/

namespace Couchstore

/-- The store has only keys that `dump-keys` gave, all of them asked for. -/
def StoreOk (dump : Bytes → Option Kdk) (asked : List Bytes) (st : ToolKeys) : Prop :=
  (∀ k ∈ st.keys, dump k.id = some k ∧ k.id ∈ asked) ∧ (∀ k, st.active = some k → k ∈ st.keys) ∧ [] ∉ st.keys.map (·.id)

variable {dump : Bytes → Option Kdk}

theorem lookup_named {asked : List Bytes} {st : ToolKeys} (h : StoreOk dump asked st) {id : Bytes} (hid : id ≠ []) :
    (toolLookup dump id st).1 = dump id := by
  unfold toolLookup
  rw [if_neg hid]
  cases hf : st.keys.find? (fun k => k.id = id) with
  | some k =>
    have h1 : k.id = id := by simpa using List.find?_some hf
    have := (h.1 k (List.mem_of_find?_eq_some hf)).1
    rw [h1] at this
    exact this.symm
  | none =>
    dsimp only
    cases hk : dump id <;> rfl

theorem lookup_store (hd : DumpOk dump) {asked : List Bytes} {st : ToolKeys} (h : StoreOk dump asked st) (id : Bytes) :
    StoreOk dump (asked ++ [id]) (toolLookup dump id st).2 := by
  have keep : StoreOk dump (asked ++ [id]) st :=
    ⟨fun k hk => ⟨(h.1 k hk).1, List.mem_append_left _ (h.1 k hk).2⟩, h.2⟩
  unfold toolLookup
  by_cases hid : id = []
  · rw [if_pos hid]; exact keep
  rw [if_neg hid]
  split
  · exact keep
  cases hk : dump id with
  | none => exact keep
  | some k =>
    have hkid := hd _ _ hk
    refine ⟨?_, ?_, ?_⟩
    · intro k' hk'
      rcases List.mem_cons.mp hk' with rfl | hk'
      · exact ⟨by rw [hkid, hk], by rw [hkid]; simp⟩
      · exact keep.1 k' hk'
    · intro k' hk'
      cases hk'
      exact List.mem_cons_self
    · rw [List.map_cons, List.mem_cons, not_or]
      exact ⟨by rw [hkid]; exact fun h => hid h.symm, h.2.2⟩

theorem store_ok (hd : DumpOk dump) (ids : List Bytes) {asked : List Bytes} {st : ToolKeys} (h : StoreOk dump asked st) :
    StoreOk dump (asked ++ ids) (toolStore dump st ids) := by
  induction ids generalizing asked st with
  | nil => rw [List.append_nil]; exact h
  | cons id ids ih =>
    unfold toolStore
    have := ih (lookup_store hd h id)
    rwa [List.append_assoc] at this

theorem store_empty : StoreOk dump [] {} := ⟨by simp, by simp, by simp⟩

theorem toolStore_append (st : ToolKeys) (a b : List Bytes) : toolStore dump st (a ++ b) = toolStore dump (toolStore dump st a) b := by
  induction a generalizing st with
  | nil => rfl
  | cons x a ih => exact ih _

/-- A key that is new becomes the active one. -/
theorem lookup_new {asked : List Bytes} {st : ToolKeys} (h : StoreOk dump asked st) {id : Bytes} (hid : id ≠ [])
    (hn : id ∉ asked) {k : Kdk} (hk : dump id = some k) :
    toolLookup dump id st = (some k, { keys := k :: st.keys, active := some k }) := by
  unfold toolLookup
  rw [if_neg hid]
  have : st.keys.find? (fun k => k.id = id) = none := by
    rw [List.find?_eq_none]
    intro k' hk' he
    have he : k'.id = id := by simpa using he
    exact hn (he ▸ (h.1 k' hk').2)
  rw [this]
  dsimp only
  rw [hk]

/-- A question that does not change the store. -/
theorem lookup_same {st : ToolKeys} {id : Bytes} (h : id = [] ∨ dump id = none ∨ ∃ k ∈ st.keys, k.id = id) :
    (toolLookup dump id st).2 = st := by
  unfold toolLookup
  split
  · rfl
  · rename_i h0
    split
    · rfl
    · rename_i hf
      rcases h with h | h | ⟨k, hk, h⟩
      · exact absurd h h0
      · rw [h]
      · rw [List.find?_eq_none] at hf
        exact absurd h (by simpa using hf k hk)

theorem store_same {st : ToolKeys} {ids : List Bytes} (h : ∀ id ∈ ids, id = [] ∨ dump id = none ∨ ∃ k ∈ st.keys, k.id = id) :
    toolStore dump st ids = st := by
  induction ids with
  | nil => rfl
  | cons id ids ih =>
    unfold toolStore
    rw [lookup_same (h id List.mem_cons_self)]
    exact ih fun x hx => h x (List.mem_cons_of_mem _ hx)

theorem answers_same {st : ToolKeys} {ids : List Bytes} (h : ∀ id ∈ ids, id = [] ∨ dump id = none ∨ ∃ k ∈ st.keys, k.id = id) :
    toolAnswers dump st ids = ids.map fun id => (toolLookup dump id st).1 := by
  induction ids with
  | nil => rfl
  | cons id ids ih =>
    unfold toolAnswers
    rw [lookup_same (h id List.mem_cons_self), List.map_cons, ih fun x hx => h x (List.mem_cons_of_mem _ hx)]

end Couchstore
