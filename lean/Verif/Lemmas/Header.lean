import Verif.Model.Header
import Verif.Lemmas.Reach

/-! Helper lemmas about the database header: a written header can be read back. -/

namespace Couchstore

theorem slice_at (pre x post : Bytes) {b : Bytes} {off n : Nat} (h : b = pre ++ (x ++ post))
    (ho : pre.length = off) (hn : x.length = n) : slice b off n = x := by
  subst h ho hn
  rw [slice_cons_app _ _ _ _ rfl, slice_prefix _ _ _ rfl]

theorem bind_ok {S α β : Type} {m : EStateM Err S α} {k : α → EStateM Err S β} {s s' : S} {a : α}
    (h : m s = .ok a s') : (m >>= k) s = k a s' := by
  show EStateM.bind m k s = _
  unfold EStateM.bind
  rw [h]

theorem bind_error {S α β : Type} {m : EStateM Err S α} {k : α → EStateM Err S β} {s s' : S} {e : Err}
    (h : m s = .error e s') : (m >>= k) s = .error e s' := by
  show EStateM.bind m k s = _
  unfold EStateM.bind
  rw [h]

theorem setHeader_eq (g : Header → Header) (db : Db) :
    setHeader g db = .ok () { db with header := g db.header } := rfl

theorem get_eq {S : Type} (s : S) : (get : EStateM Err S S) s = .ok s s := rfl

/-- A root as it is read back: its key is not stored. -/
def diskRoot (r : Option NodePointer) : Option NodePointer := r.map fun p => { p with key := [] }

/-- A header as it is read back from position `pos`. -/
def diskHeader (h : Header) (pos : Nat) : Header :=
  { h with
    byIdRoot := diskRoot h.byIdRoot
    bySeqRoot := diskRoot h.bySeqRoot
    localRoot := diskRoot h.localRoot
    position := pos
    timestamp := if 13 ≤ h.diskVersion then h.timestamp else 0
    prevHeaderPos := if 14 ≤ h.diskVersion then h.prevHeaderPos else unknownPrevHeaderPos
    haveMeta := if 14 ≤ h.diskVersion then h.haveMeta else false }

/-- The versions the library reads and writes. -/
def goodVersion (v : Nat) : Prop := v = 11 ∨ v = 12 ∨ v = 13 ∨ v = 14

def rootPtrLt (r : Option NodePointer) (pos : Nat) : Prop := ∀ p, r = some p → p.pointer < pos

theorem length_encodeRoot (r : Option NodePointer) :
    (encodeRoot r).length = match r with | none => 0 | some p => 12 + p.reduceValue.length := by
  cases r with
  | none => rfl
  | some p => simp [encodeRoot]; omega

theorem readDbRoot_encode (set : Option NodePointer → Header → Header) (r : Option NodePointer) (db : Db)
    (hf : rootFits r = true)
    (hp : ∀ h x, (set x h).position = h.position) (hlt : rootPtrLt r db.header.position) :
    readDbRoot set (encodeRoot r) db = .ok () { db with header := set (diskRoot r) db.header } := by
  cases r with
  | none => rfl
  | some p =>
    unfold readDbRoot
    have hl := length_encodeRoot (some p)
    simp only at hl
    rw [if_pos (by omega), if_neg (by omega)]
    simp only [rootFits, Bool.and_eq_true, decide_eq_true_eq] at hf
    have hrr : readRoot (encodeRoot (some p)) = some { p with key := [] } := by
      unfold readRoot
      rw [if_neg (by omega)]
      have h1 : slice (encodeRoot (some p)) 0 6 = enc48 p.pointer :=
        slice_at [] _ (enc48 p.subtreesize ++ p.reduceValue) (by simp [encodeRoot]) rfl (by simp)
      have h2 : slice (encodeRoot (some p)) 6 6 = enc48 p.subtreesize :=
        slice_at (enc48 p.pointer) _ p.reduceValue (by simp [encodeRoot]) (by simp) (by simp)
      have h3 : (encodeRoot (some p)).drop 12 = p.reduceValue := by
        unfold encodeRoot
        rw [List.drop_left' (by simp)]
      rw [h1, h2, h3, beDec_beEnc 6 _ (by simpa using hf.1.1), beDec_beEnc 6 _ (by simpa using hf.1.2)]
    rw [hrr]
    show (match setHeader (set (some { p with key := [] })) db with | _ => _) = _
    simp only [setHeader]
    show (if _ then _ else _ : DbM Unit) _ = _
    have := hlt p rfl
    rw [if_pos (by
      show p.pointer < (set _ db.header).position
      rw [hp]; exact this)]
    rfl

theorem length_encodeHeader (h : Header) (hv : goodVersion h.diskVersion) (size : Nat)
    (hs : headerFixedSize h.diskVersion = some size) :
    (encodeHeader h).length = size + (encodeRoot h.bySeqRoot).length + (encodeRoot h.byIdRoot).length +
      (encodeRoot h.localRoot).length := by
  unfold encodeHeader
  rcases hv with hv | hv | hv | hv <;> rw [hv] at hs ⊢ <;> simp only [headerFixedSize, Option.some.injEq] at hs <;>
    subst hs <;> simp <;> omega

/-- Where the parts of an encoded header are. -/
structure HeaderSlices (h : Header) (size : Nat) : Prop where
  s1 : slice (encodeHeader h) 1 6 = enc48 h.updateSeq
  s2 : slice (encodeHeader h) 7 6 = enc48 h.purgeSeq
  s3 : slice (encodeHeader h) 13 6 = enc48 h.purgePtr
  s4 : slice (encodeHeader h) 19 2 = enc16 (encodeRoot h.bySeqRoot).length
  s5 : slice (encodeHeader h) 21 2 = enc16 (encodeRoot h.byIdRoot).length
  s6 : slice (encodeHeader h) 23 2 = enc16 (encodeRoot h.localRoot).length
  s7 : 13 ≤ h.diskVersion → slice (encodeHeader h) 25 8 = beEnc 8 h.timestamp
  s8 : 14 ≤ h.diskVersion → slice (encodeHeader h) 33 6 =
      enc48 (2 * h.prevHeaderPos + (if h.haveMeta then 1 else 0))
  s9 : slice (encodeHeader h) size (encodeRoot h.bySeqRoot).length = encodeRoot h.bySeqRoot
  s10 : slice (encodeHeader h) (size + (encodeRoot h.bySeqRoot).length) (encodeRoot h.byIdRoot).length =
      encodeRoot h.byIdRoot
  s11 : slice (encodeHeader h) (size + (encodeRoot h.bySeqRoot).length + (encodeRoot h.byIdRoot).length)
      (encodeRoot h.localRoot).length = encodeRoot h.localRoot

theorem headerSlices (h : Header) (hv : goodVersion h.diskVersion) {size : Nat}
    (hs : headerFixedSize h.diskVersion = some size) : HeaderSlices h size := by
  generalize hts : (if 13 ≤ h.diskVersion then beEnc 8 h.timestamp else []) = ts
  generalize hpv : (if 14 ≤ h.diskVersion then
    enc48 (2 * h.prevHeaderPos + (if h.haveMeta then 1 else 0)) else []) = pv
  have henc : encodeHeader h = enc8 h.diskVersion ++ (enc48 h.updateSeq ++ (enc48 h.purgeSeq ++
      (enc48 h.purgePtr ++ (enc16 (encodeRoot h.bySeqRoot).length ++ (enc16 (encodeRoot h.byIdRoot).length ++
      (enc16 (encodeRoot h.localRoot).length ++ (ts ++ (pv ++ (encodeRoot h.bySeqRoot ++
      (encodeRoot h.byIdRoot ++ encodeRoot h.localRoot)))))))))) := by
    unfold encodeHeader
    rw [hts, hpv]
    simp only [List.append_assoc]
  have hszt : size = 25 + ts.length + pv.length := by
    rw [← hts, ← hpv]
    rcases hv with hv | hv | hv | hv <;> rw [hv] at hs ⊢ <;>
      simp only [headerFixedSize, Option.some.injEq] at hs <;> subst hs <;> simp
  have s1 : slice (encodeHeader h) 1 6 = enc48 h.updateSeq := by
    refine slice_at (enc8 h.diskVersion) _ _ henc (by simp) (by simp)
  have s2 : slice (encodeHeader h) 7 6 = enc48 h.purgeSeq := by
    refine slice_at (enc8 h.diskVersion ++ enc48 h.updateSeq) _ _
      (by rw [henc]; simp only [List.append_assoc]; rfl) (by simp) (by simp)
  have s3 : slice (encodeHeader h) 13 6 = enc48 h.purgePtr := by
    refine slice_at (enc8 h.diskVersion ++ enc48 h.updateSeq ++ enc48 h.purgeSeq) _ _
      (by rw [henc]; simp only [List.append_assoc]; rfl) (by simp) (by simp)
  have s4 : slice (encodeHeader h) 19 2 = enc16 (encodeRoot h.bySeqRoot).length := by
    refine slice_at (enc8 h.diskVersion ++ enc48 h.updateSeq ++ enc48 h.purgeSeq ++ enc48 h.purgePtr) _ _
      (by rw [henc]; simp only [List.append_assoc]; rfl) (by simp) (by simp)
  have s5 : slice (encodeHeader h) 21 2 = enc16 (encodeRoot h.byIdRoot).length := by
    refine slice_at (enc8 h.diskVersion ++ enc48 h.updateSeq ++ enc48 h.purgeSeq ++ enc48 h.purgePtr ++
      enc16 (encodeRoot h.bySeqRoot).length) _ _
      (by rw [henc]; simp only [List.append_assoc]; rfl) (by simp) (by simp)
  have s6 : slice (encodeHeader h) 23 2 = enc16 (encodeRoot h.localRoot).length := by
    refine slice_at (enc8 h.diskVersion ++ enc48 h.updateSeq ++ enc48 h.purgeSeq ++ enc48 h.purgePtr ++
      enc16 (encodeRoot h.bySeqRoot).length ++ enc16 (encodeRoot h.byIdRoot).length) _ _
      (by rw [henc]; simp only [List.append_assoc]; rfl) (by simp) (by simp)
  have s7 : 13 ≤ h.diskVersion → slice (encodeHeader h) 25 8 = beEnc 8 h.timestamp := by
    intro h13
    rw [if_pos h13] at hts
    refine slice_at (enc8 h.diskVersion ++ enc48 h.updateSeq ++ enc48 h.purgeSeq ++ enc48 h.purgePtr ++
      enc16 (encodeRoot h.bySeqRoot).length ++ enc16 (encodeRoot h.byIdRoot).length ++
      enc16 (encodeRoot h.localRoot).length) _ _
      (by rw [henc, ← hts]; simp only [List.append_assoc]; rfl) (by simp) (by simp)
  have s8 : 14 ≤ h.diskVersion → slice (encodeHeader h) 33 6 =
      enc48 (2 * h.prevHeaderPos + (if h.haveMeta then 1 else 0)) := by
    intro h14
    rw [if_pos h14] at hpv
    have h13 : 13 ≤ h.diskVersion := by omega
    rw [if_pos h13] at hts
    refine slice_at (enc8 h.diskVersion ++ enc48 h.updateSeq ++ enc48 h.purgeSeq ++ enc48 h.purgePtr ++
      enc16 (encodeRoot h.bySeqRoot).length ++ enc16 (encodeRoot h.byIdRoot).length ++
      enc16 (encodeRoot h.localRoot).length ++ ts) _ _
      (by rw [henc, ← hts, ← hpv]; simp only [List.append_assoc]; rfl) (by simp [← hts]) (by simp)
  have s9 : slice (encodeHeader h) size (encodeRoot h.bySeqRoot).length = encodeRoot h.bySeqRoot := by
    refine slice_at (enc8 h.diskVersion ++ enc48 h.updateSeq ++ enc48 h.purgeSeq ++ enc48 h.purgePtr ++
      enc16 (encodeRoot h.bySeqRoot).length ++ enc16 (encodeRoot h.byIdRoot).length ++
      enc16 (encodeRoot h.localRoot).length ++ ts ++ pv) _ _
      (by rw [henc]; simp only [List.append_assoc]; rfl) (by simp; omega) rfl
  have s10 : slice (encodeHeader h) (size + (encodeRoot h.bySeqRoot).length) (encodeRoot h.byIdRoot).length =
      encodeRoot h.byIdRoot := by
    refine slice_at (enc8 h.diskVersion ++ enc48 h.updateSeq ++ enc48 h.purgeSeq ++ enc48 h.purgePtr ++
      enc16 (encodeRoot h.bySeqRoot).length ++ enc16 (encodeRoot h.byIdRoot).length ++
      enc16 (encodeRoot h.localRoot).length ++ ts ++ pv ++ encodeRoot h.bySeqRoot) _ _
      (by rw [henc]; simp only [List.append_assoc]; rfl) (by simp; omega) rfl
  have s11 : slice (encodeHeader h) (size + (encodeRoot h.bySeqRoot).length + (encodeRoot h.byIdRoot).length)
      (encodeRoot h.localRoot).length = encodeRoot h.localRoot := by
    refine slice_at (enc8 h.diskVersion ++ enc48 h.updateSeq ++ enc48 h.purgeSeq ++ enc48 h.purgePtr ++
      enc16 (encodeRoot h.bySeqRoot).length ++ enc16 (encodeRoot h.byIdRoot).length ++
      enc16 (encodeRoot h.localRoot).length ++ ts ++ pv ++ encodeRoot h.bySeqRoot ++ encodeRoot h.byIdRoot) _ []
      (by rw [henc]; simp only [List.append_assoc, List.append_nil]) (by simp; omega) rfl
  exact ⟨s1, s2, s3, s4, s5, s6, s7, s8, s9, s10, s11⟩

theorem decodeFixed_encode (h : Header) (pos : Nat) {size : Nat} (S : HeaderSlices h size)
    (f1 : h.updateSeq < 2 ^ 48) (f2 : h.purgeSeq < 2 ^ 48) (f3 : h.purgePtr < 2 ^ 48)
    (f4 : h.timestamp < 2 ^ 64) (f5 : h.diskVersion < 14 ∨ h.prevHeaderPos < 2 ^ 47)
    (h0 : Header) (hp0 : h0.position = pos) :
      decodeFixed h.diskVersion (encodeHeader h) h0 =
        { diskHeader h pos with byIdRoot := h0.byIdRoot, bySeqRoot := h0.bySeqRoot, localRoot := h0.localRoot } := by
  obtain ⟨s1, s2, s3, s4, s5, s6, s7, s8, s9, s10, s11⟩ := S
  unfold decodeFixed diskHeader
  rw [s1, s2, s3, beDec_beEnc 6 _ (by simpa using f1), beDec_beEnc 6 _ (by simpa using f2),
    beDec_beEnc 6 _ (by simpa using f3), hp0]
  have e1 : (if 13 ≤ h.diskVersion then beDec (slice (encodeHeader h) 25 8) else 0) =
      if 13 ≤ h.diskVersion then h.timestamp else 0 := by
    split
    · rename_i h13
      rw [s7 h13, beDec_beEnc 8 _ (by simpa using f4)]
    · rfl
  have e23 : 14 ≤ h.diskVersion → beDec (slice (encodeHeader h) 33 6) =
      2 * h.prevHeaderPos + (if h.haveMeta then 1 else 0) := by
    intro h14
    rw [s8 h14, beDec_beEnc 6]
    have : h.prevHeaderPos < 2 ^ 47 := by omega
    split <;> omega
  have e2 : (if 14 ≤ h.diskVersion then beDec (slice (encodeHeader h) 33 6) / 2 else unknownPrevHeaderPos) =
      if 14 ≤ h.diskVersion then h.prevHeaderPos else unknownPrevHeaderPos := by
    split
    · rename_i h14
      rw [e23 h14]; split <;> omega
    · rfl
  have e3 : (if 14 ≤ h.diskVersion then beDec (slice (encodeHeader h) 33 6) % 2 == 1 else false) =
      if 14 ≤ h.diskVersion then h.haveMeta else false := by
    split
    · rename_i h14
      rw [e23 h14]
      cases h.haveMeta <;> simp <;> omega
    · rfl
  rw [e1, e2, e3]

theorem loadHeader_encode (h : Header) (pos : Nat) (db : Db) (hv : goodVersion h.diskVersion)
    (hf : headerFits h = true) (hpp : h.purgePtr ≤ pos) (hid : rootPtrLt h.byIdRoot pos)
    (hseq : rootPtrLt h.bySeqRoot pos) (hloc : rootPtrLt h.localRoot pos) :
    loadHeader pos (encodeHeader h) db = .ok () { db with header := diskHeader h pos } := by
  obtain ⟨size, hs⟩ : ∃ size, headerFixedSize h.diskVersion = some size := by
    rcases hv with hv | hv | hv | hv <;> rw [hv] <;> exact ⟨_, rfl⟩
  have hlen := length_encodeHeader h hv size hs
  obtain ⟨rest, hrest⟩ : ∃ rest, encodeHeader h = UInt8.ofNat h.diskVersion :: rest := by
    unfold encodeHeader
    simp only [List.append_assoc]
    rw [show enc8 h.diskVersion = [UInt8.ofNat h.diskVersion] by simp [beEnc]]
    exact ⟨_, rfl⟩
  have hvt : (UInt8.ofNat h.diskVersion).toNat = h.diskVersion := by
    rcases hv with hv | hv | hv | hv <;> rw [hv] <;> rfl
  simp only [headerFits, Bool.and_eq_true, decide_eq_true_eq, Bool.or_eq_true] at hf
  obtain ⟨⟨⟨⟨⟨⟨⟨f1, f2⟩, f3⟩, f4⟩, f5⟩, f6⟩, f7⟩, f8⟩ := hf
  have hl : ∀ r, rootFits r = true → (encodeRoot r).length < 2 ^ 16 := by
    intro r hr
    rw [length_encodeRoot]
    cases r with
    | none => simp
    | some p =>
      simp only [rootFits, Bool.and_eq_true, decide_eq_true_eq] at hr
      exact hr.2
  have S := headerSlices h hv hs
  have hdec := decodeFixed_encode h pos S f1 f2 f3 f4 f5
  obtain ⟨s1, s2, s3, s4, s5, s6, s7, s8, s9, s10, s11⟩ := S
  have d16 : ∀ r, rootFits r = true → beDec (enc16 (encodeRoot r).length) = (encodeRoot r).length := by
    intro r hr
    exact beDec_beEnc 2 _ (by have := hl r hr; simpa using this)
  generalize encodeHeader h = b at *
  rw [hrest]
  rw [hrest] at hlen s4 s5 s6 s9 s10 s11 hdec
  unfold loadHeader
  simp only
  rw [bind_ok (setHeader_eq _ db)]
  rw [hvt, hs]
  simp only
  rw [if_neg (by omega)]
  rw [s4, s5, s6, d16 _ f6, d16 _ f7, d16 _ f8]
  rw [bind_ok (setHeader_eq _ _), hdec _ rfl]
  rw [bind_ok (get_eq _), if_neg (by show ¬ h.purgePtr > pos; omega), if_neg (by omega), s9, s10, s11]
  rw [bind_ok (readDbRoot_encode (fun r h => { h with bySeqRoot := r }) _ _ f7 (fun _ _ => rfl) hseq)]
  rw [bind_ok (readDbRoot_encode (fun r h => { h with byIdRoot := r }) _ _ f6 (fun _ _ => rfl) hid)]
  rw [readDbRoot_encode (fun r h => { h with localRoot := r }) _ _ f8 (fun _ _ => rfl) hloc]
  rfl

end Couchstore
