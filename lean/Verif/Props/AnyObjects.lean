import Verif.Proofs.AnyObjects
/-
C115: messages are compared, hashed and printed while the memory changes in any way, at any depth.
-/
namespace FinProto

/-- **C115.** Whatever other threads do to the memory meanwhile, if `hashCode()` returns a value, it is the one for what the thread saw of the message: each field of
each part, at any depth, as it was at a moment of its own during the call.  The fields of a message are read in the order of their declaration and all before the
first of them is hashed. -/
theorem C115_hashCode (M : Memory) (n : Nat) (x : HVal) (k k' : Nat) (i : BitVec 32) (h : ghash M n x k = (.ok i, k')) :
    ∃ v, Glimpse M true k k' x v ∧ Val.hashCode n v = .ok i :=
  (ghash_saw M n x k i k' h).2

/-- **C115.** … and the same for the text of `toString()`; here each field is printed, with all that it refers to, before the next is read.  No list contains itself
(the types of the classes exclude it). -/
theorem C115_toString (M : Memory) (flt : Num → JStr) (hs : ∀ k a i, (M k).item a i ≠ some (.ref a)) (n : Nat) (x : HVal) (k k' : Nat) (t : JStr)
    (h : gtoStr M flt n x k = (some t, k')) : ∃ v, Glimpse M false k k' x v ∧ Val.toStr flt n v = some t :=
  (gtoStr_saw M flt hs n x k t k' h).2

/-- **C115.** If `equals` says "equal", every pair of fields was looked at and found equal, each field of the one at a moment of its own and that of the other at the
next moment. -/
theorem C115_equal (M : Memory) (n : Nat) (x y : HVal) (k k' : Nat) (h : gequals M n x y k = (.ok true, k')) : FoundEqual M k k' x y :=
  (gequals_saw M n x y k true k' h).2.1 rfl

/-- **C115.** If `equals` says "different", there was a difference: a field of the one at some moment was different from that of the other at the next moment. -/
theorem C115_different (M : Memory) (n : Nat) (x y : HVal) (k k' : Nat) (h : gequals M n x y k = (.ok false, k')) : FoundDifferent M k k' x y :=
  (gequals_saw M n x y k false k' h).2.2 rfl

/-- **C115.** A message is equal to itself, whatever happens to it meanwhile. -/
theorem C115_itself (M : Memory) (n r k : Nat) : (gequals M (n + 1) (.ref r) (.ref r) k).1 = .ok true := by
  rw [gequals, if_pos rfl]

/-- **C115.** As long as lists keep their size, `hashCode` and `equals` throw nothing but `StackOverflowError`, whatever is set meanwhile. -/
theorem C115_exceptions (M : Memory) (hM : WellKept M) (n : Nat) (x y : HVal) (k : Nat) (hx : There M k x) (hy : There M k y) (e : JErr) :
    ((ghash M n x k).1 = .error e → e = .stackOverflow) ∧ ((gequals M n x y k).1 = .error e → e = .stackOverflow) :=
  ⟨fun h => ghash_error hM n x k e _ hx (Prod.ext h rfl), fun h => gequals_error hM n x y k e _ hx hy (Prod.ext h rfl)⟩

/-- **C115.** Setters keep the memory like this, whichever are called, on whatever objects, with whatever values (references to objects): so while setters are called,
`hashCode` and `equals` of any message throw nothing but `StackOverflowError`. -/
theorem C115_setters (o : HOthers) (h : Heap) (hf : FieldsOK h) (hr : RefsOK h) (ho : ∀ k, ∀ p ∈ o k, ∀ q, p.2.2 = .ref q → q < h.length)
    (n a b : Nat) (ha : a < h.length) (hb : b < h.length) (e : JErr) :
    WellKept (o.memory h) ∧ ((ghash (o.memory h) n (.ref a) 0).1 = .error e → e = .stackOverflow)
    ∧ ((gequals (o.memory h) n (.ref a) (.ref b) 0).1 = .error e → e = .stackOverflow) := by
  have hk := memory_kept hf hr ho
  have there : ∀ a, a < h.length → There (o.memory h) 0 (.ref a) := by
    rintro a ha _ ⟨⟩
    exact ⟨_, List.getElem?_eq_getElem (by rw [(memory_same o h 0).1]; exact ha)⟩
  exact ⟨hk, C115_exceptions _ hk n _ _ 0 (there a ha) (there b hb) e⟩

/-- **C115.** What others do to objects that the messages do not consist of makes no difference: the messages are compared, hashed and printed as alone. -/
theorem C115_untouched (M : Memory) (h : Heap) (flt : Num → JStr) (n : Nat) (x y : HVal) (k : Nat) (hx : Untouched M h x) (hy : Untouched M h y) :
    (ghash M n x k).1 = hhash h n x ∧ (gtoStr M flt n x k).1 = htoStr h flt n x ∧ (gequals M n x y k).1 = hequals h n x y :=
  ⟨ghash_untouched n x k hx, gtoStr_untouched flt n x k hx, gequals_untouched n x y k hx hy⟩

/-- **C115.** In particular when the memory does not change at all. -/
theorem C115_quiet (h : Heap) (flt : Num → JStr) (n : Nat) (x y : HVal) (k : Nat) :
    (ghash (fun _ => h) n x k).1 = hhash h n x ∧ (gtoStr (fun _ => h) flt n x k).1 = htoStr h flt n x ∧ (gequals (fun _ => h) n x y k).1 = hequals h n x y :=
  C115_untouched _ h flt n x y k (fun _ _ _ => rfl) (fun _ _ _ => rfl)

/-! ### What does not hold -/

/-- A message (at 0) with a part (at 1) that is also the only element of its list (at 2), and one (at 3) with two parts (at 4 and 6). -/
private def shared (u : BitVec 32) : Heap :=
  [.msg .sample_NestedPacket [.ref 1, .ref 2, .null], .msg .sample_SubPacket [.num ⟨.i32, u⟩, .null], .arr [.ref 1],
   .msg .sample_NestedPacket [.ref 4, .ref 5, .null], .msg .sample_SubPacket [.num ⟨.i32, 1⟩, .null], .arr [.ref 6], .msg .sample_SubPacket [.num ⟨.i32, 2⟩, .null]]

/-- `setFieldU32(2)` of the part just before access number `i`. -/
private def oneSetter (i : Nat) : Memory := fun k => if k < i then shared 1 else shared 2

private theorem oneSetter_or (i k : Nat) : oneSetter i k = shared 1 ∨ oneSetter i k = shared 2 := by
  unfold oneSetter
  split
  · exact .inl rfl
  · exact .inr rfl

set_option maxRecDepth 4000 in
/-- **C115 violated.** A single call of a setter during `hashCode()` or `toString()` is enough to get the value of a message that never existed: when a part occurs
twice in the message, it may be seen once with the old and once with the new value. -/
theorem C115_one_setter_violated (flt : Num → JStr) :
    (ghash (oneSetter 5) 5 (.ref 0) 0).1 = .ok 1015777
    ∧ (gtoStr (oneSetter 4) flt 5 (.ref 0) 0).1 =
        some (js "NestedPacket [subPacket=SubPacket [fieldU32=1, fieldI16List=null], subPacketList=[SubPacket [fieldU32=2, fieldI16List=null]], inerPacket=null]")
    ∧ ∀ i k, hhash (oneSetter i k) 5 (.ref 0) ≠ .ok 1015777
      ∧ htoStr (oneSetter i k) flt 5 (.ref 0) ≠
          some (js "NestedPacket [subPacket=SubPacket [fieldU32=1, fieldI16List=null], subPacketList=[SubPacket [fieldU32=2, fieldI16List=null]], inerPacket=null]") := by
  refine ⟨rfl, rfl, fun i k => ?_⟩
  have a1 : hhash (shared 1) 5 (.ref 0) = .ok 1014816 := rfl
  have a2 : hhash (shared 2) 5 (.ref 0) = .ok 1045568 := rfl
  have t1 : htoStr (shared 1) flt 5 (.ref 0) =
    some (js "NestedPacket [subPacket=SubPacket [fieldU32=1, fieldI16List=null], subPacketList=[SubPacket [fieldU32=1, fieldI16List=null]], inerPacket=null]") := rfl
  have t2 : htoStr (shared 2) flt 5 (.ref 0) =
    some (js "NestedPacket [subPacket=SubPacket [fieldU32=2, fieldI16List=null], subPacketList=[SubPacket [fieldU32=2, fieldI16List=null]], inerPacket=null]") := rfl
  rcases oneSetter_or i k with h | h <;> rw [h]
  · rw [a1, t1]
    exact ⟨fun e => absurd (Except.ok.inj e) (by decide), by decide +kernel⟩
  · rw [a2, t2]
    exact ⟨fun e => absurd (Except.ok.inj e) (by decide), by decide +kernel⟩

/-- **C115 violated.** `a.equals(b)` may be true although `b` is never changed, one setter of a part of `a` is called once, and `a` is equal to `b` neither before nor
after. -/
theorem C115_equals_violated :
    (gequals (oneSetter 9) 5 (.ref 0) (.ref 3) 0).1 = .ok true ∧ ∀ i k, hequals (oneSetter i k) 5 (.ref 0) (.ref 3) = .ok false := by
  refine ⟨rfl, fun i k => ?_⟩
  rcases oneSetter_or i k with h | h <;> rw [h] <;> rfl

/-- A message (at 0) with a part (at 1); just before access number `i` another thread replaces the part by an equal one (at 2) and goes on to use the old one for
something else.  At 3 and 4 an equal message. -/
private def exchanged (i : Nat) : Memory := fun k =>
  [.msg .sample_NestedPacket [.ref (if k < i then 1 else 2), .null, .null], .msg .sample_SubPacket [.num ⟨.i32, if k < i then 1 else 7⟩, .null],
   .msg .sample_SubPacket [.num ⟨.i32, 1⟩, .null], .msg .sample_NestedPacket [.ref 4, .null, .null], .msg .sample_SubPacket [.num ⟨.i32, 1⟩, .null]]

/-- **C115 violated.** A message that shows the same value at all moments may have another hash, another text, and be different from an equal one nobody touches: the
reference to a part is read, the part is replaced by an equal one, and the old part is looked into after it was put to another use. -/
theorem C115_stale_violated (flt : Num → JStr) :
    let v : Val := .obj .sample_NestedPacket [.obj .sample_SubPacket [.num ⟨.i32, 1⟩, .null], .null, .null]
    (∀ i k, Shows (exchanged i k) v (.ref 0)) ∧ (∀ i k, Shows (exchanged i k) v (.ref 3))
    ∧ (∃ a b, Val.hashCode 5 v = .ok a ∧ (ghash (exchanged 3) 5 (.ref 0) 0).1 = .ok b ∧ a ≠ b)
    ∧ Val.toStr flt 5 v = some (js "NestedPacket [subPacket=SubPacket [fieldU32=1, fieldI16List=null], subPacketList=null, inerPacket=null]")
    ∧ (gtoStr (exchanged 1) flt 5 (.ref 0) 0).1 = some (js "NestedPacket [subPacket=SubPacket [fieldU32=7, fieldI16List=null], subPacketList=null, inerPacket=null]")
    ∧ (gequals (exchanged 4) 5 (.ref 0) (.ref 3) 0).1 = .ok false := by
  refine ⟨fun i k => ?_, fun i k => ?_, ⟨_, _, rfl, rfl, by decide +kernel⟩, rfl, rfl, rfl⟩
  · by_cases h : k < i
    · simp [Shows, ShowsAll, exchanged, h]
    · simp [Shows, ShowsAll, exchanged, h]
  · simp [Shows, ShowsAll, exchanged]

/-! ### Non-vacuity -/

private theorem oneSetter_eq (i k : Nat) : ∃ u, oneSetter i k = shared u := by
  rcases oneSetter_or i k with h | h
  · exact ⟨_, h⟩
  · exact ⟨_, h⟩

private theorem oneSetter_kept (i : Nat) : WellKept (oneSetter i) := by
  refine ⟨fun k r c ys h => ?_, fun k l r c ys _ h => ?_, fun k l a xs _ h => ?_, fun k r q o h hq => ?_⟩
  · obtain ⟨u, e⟩ := oneSetter_eq i k
    rw [e] at h
    match r, h with
    | 0, h | 1, h | 2, h | 3, h | 4, h | 5, h | 6, h => cases h <;> rfl
    | r + 7, h => cases h
  · obtain ⟨u, e⟩ := oneSetter_eq i k
    obtain ⟨v, e'⟩ := oneSetter_eq i l
    rw [e] at h
    rw [e']
    match r, h with
    | 0, h | 1, h | 2, h | 3, h | 4, h | 5, h | 6, h => cases h <;> exact ⟨_, rfl⟩
    | r + 7, h => cases h
  · obtain ⟨u, e⟩ := oneSetter_eq i k
    obtain ⟨v, e'⟩ := oneSetter_eq i l
    rw [e] at h
    rw [e']
    match a, h with
    | 0, h | 1, h | 2, h | 3, h | 4, h | 5, h | 6, h => cases h <;> exact ⟨_, rfl, rfl⟩
    | r + 7, h => cases h
  · obtain ⟨u, e⟩ := oneSetter_eq i k
    rw [e] at h ⊢
    have hq7 : q < 7 := by
      match r, h with
      | 0, h | 1, h | 2, h | 3, h | 4, h | 5, h | 6, h => cases h <;> simp [HObj.values] at hq <;> omega
      | r + 7, h => cases h
    exact ⟨_, List.getElem?_eq_getElem (show q < (shared u).length from hq7)⟩

-- a message that is changed while it is hashed, printed and compared
example : ∃ v, Glimpse (oneSetter 5) true 0 9 (.ref 0) v ∧ Val.hashCode 5 v = .ok 1015777 := C115_hashCode (oneSetter 5) 5 (.ref 0) 0 9 1015777 rfl
example : ∀ k a i, (oneSetter 5 k).item a i ≠ some (.ref a) := by
  intro k a i h
  obtain ⟨u, e⟩ := oneSetter_eq 5 k
  rw [e] at h
  match a, i, h with
  | 2, 0, h | 5, 0, h => exact absurd h (by simp [Heap.item, shared])
  | 2, i + 1, h | 5, i + 1, h => cases h
  | 0, _, h | 1, _, h | 3, _, h | 4, _, h | 6, _, h | _ + 7, _, h => cases h
example : FoundEqual (oneSetter 9) 0 24 (.ref 0) (.ref 3) := C115_equal (oneSetter 9) 5 _ _ 0 24 rfl
example : FoundDifferent (oneSetter 3) 0 8 (.ref 0) (.ref 3) := C115_different (oneSetter 3) 5 _ _ 0 8 rfl
-- the conditions of `C115_exceptions` are met, and the exception occurs
example : WellKept (oneSetter 5) ∧ There (oneSetter 5) 0 (.ref 0) ∧ (ghash (oneSetter 5) 3 (.ref 0) 0).1 = .error .stackOverflow :=
  ⟨oneSetter_kept 5, fun r h => by cases h; exact ⟨_, rfl⟩, rfl⟩
-- setters of a part that occurs twice
example : FieldsOK (shared 1) ∧ RefsOK (shared 1) ∧ (∀ k, ∀ p ∈ (fun k => if k = 5 then [(1, 0, .num ⟨.i32, 2⟩)] else [] : HOthers) k, ∀ q, p.2.2 = .ref q → q < (shared 1).length)
    ∧ (ghash (HOthers.memory (fun k => if k = 5 then [(1, 0, .num ⟨.i32, 2⟩)] else []) (shared 1)) 5 (.ref 0) 0).1 = .ok 1015777 := by
  have e : shared 1 = oneSetter 1 0 := rfl
  refine ⟨fun r c ys h => (oneSetter_kept 1).fields 0 r c ys (e ▸ h), fun r q o h hq => ?_, fun k p hp q hq => ?_, rfl⟩
  · obtain ⟨o', h'⟩ := (oneSetter_kept 1).refs 0 r q o (e ▸ h) hq
    exact (List.getElem?_eq_some_iff.1 (e ▸ h')).1
  · dsimp only at hp
    split at hp
    · rw [List.mem_singleton.1 hp] at hq
      cases hq
    · cases hp
-- others change a message, and the message that does not contain it is hashed as alone
example : Untouched (oneSetter 5) (shared 1) (.ref 3) := by
  intro k q h
  obtain ⟨u, e⟩ := oneSetter_eq 5 k
  rw [e]
  have hq : q ≠ 1 := by
    have leaf : ∀ r q o, (shared 1)[r]? = some o → (∀ y ∈ o.values, ∀ p, y ≠ .ref p) → Reach (shared 1) (.ref r) q → q = r := by
      intro r q o ho hv h
      cases h with
      | here => rfl
      | step _ _ o' y h1 h2 h3 =>
        rw [ho] at h1
        cases h1
        cases h3 with
        | here => exact absurd rfl (hv _ h2 _)
        | step => exact absurd rfl (hv _ h2 _)
    have l4 := fun q => leaf 4 q _ rfl (by simp [HObj.values])
    have l6 := fun q => leaf 6 q _ rfl (by simp [HObj.values])
    have l5 : ∀ q, Reach (shared 1) (.ref 5) q → q ≠ 1 := by
      intro q h
      cases h with
      | here => decide
      | step _ _ o y h1 h2 h3 =>
        cases h1
        simp only [HObj.values, List.mem_singleton] at h2
        subst h2
        rw [l6 _ h3]
        decide
    cases h with
    | here => decide
    | step _ _ o y h1 h2 h3 =>
      cases h1
      simp only [HObj.values, List.mem_cons, List.not_mem_nil, or_false] at h2
      rcases h2 with rfl | rfl | rfl
      · rw [l4 _ h3]; decide
      · exact l5 _ h3
      · cases h3
  match q, hq with
  | 0, _ | 2, _ | 3, _ | 4, _ | 5, _ | 6, _ => rfl
  | 1, h => exact absurd rfl h
  | q + 7, _ => rfl

end FinProto
