import Verif.Proofs.JavaDecode
import Verif.Props.History
import Verif.Props.RoundTrip
import Verif.Props.Heap
import Verif.Props.DecodeErrors
/-
C82: the statements of every `encode` and `decode`, run one by one as Java runs them, always come to an end and do what the rest of the model says.
(`callEncode` and `callDecode` are `none` if the run does not end.)
-/
namespace FinProto
open Java

/-- The statements of `encode`, wherever the model's result is not an ill-typed one. -/
theorem callEncode_eq (w : World) (sup : Suppliers) (n : Nat) (x : HVal) (h : Heap) (b : WBuf) (hl : ListsFit h) (hb : GoodBuf b)
    (hok : (hencode w n x h b).2.2 ≠ some .illTyped) : callEncode w.svc sup n x h b = some (hencode w n x h b) := by
  unfold callEncode
  have := run_hencode (sup := sup) (w := w) rfl n 0 [] (.var .i) [] ⟨h, b, ⟨[], [], 0⟩, fun _ => some (.val x)⟩ x rfl hl hb hok
  rw [this]
  dsimp only [after]
  rcases hencode w n x h b with ⟨h', b', _ | err⟩ <;> simp [next, run_nil]

/-- The statements of `decode`, wherever the model's result is not an ill-typed one. -/
theorem callDecode_eq (svc : Registry) (sup : Suppliers) (hs : RefSups sup) (n : Nat) (r : Nat) (h : Heap) (b : RBuf) (c : Cls) (ys : List HVal)
    (hr : h[r]? = some (.msg c ys)) (hok : (hdecode sup n r h b).2.2 ≠ some .illTyped) :
    callDecode svc sup n (.ref r) h b = some (hdecode sup n r h b) := by
  unfold callDecode
  have := run_hdecode (svc := svc) hs n 0 [] (.var .i) [] ⟨h, ⟨[], 0, 0⟩, b, fun _ => some (.val (.ref r))⟩ r c ys rfl hr hok
  rw [this]
  dsimp only [dafter]
  rcases hdecode sup n r h b with ⟨h', b', _ | err⟩ <;> simp [next, run_nil]

theorem refSups_of_typed {h : Heap} {sup : Suppliers} (hs : TypedSups h sup) : RefSups sup := by
  intro fac key s h1
  have h2 := hs fac key s h1
  cases s with
  | make v =>
    rcases h2 with h2 | h2
    · subst h2; trivial
    · obtain ⟨c, fs, rfl, -⟩ := wellTyped_obj v h2
      trivial
  | give x =>
    cases h2 with
    | null _ => trivial
    | codec _ => trivial

/-- **C82.** Calling `encode` on any reference in any heap that a Java program can have built - any sharing, cycles included - with any call-stack depth, any
registered services and any buffer: the Java statements come to an end, and heap, buffer and exception are those of the model. -/
theorem C82_encode (w : World) (sup : Suppliers) (n : Nat) (h : Heap) (hh : TypedHeap h) (hl : ListsFit h) (x : HVal) (hx : ValOf h .codec x) (b : WBuf)
    (hb : GoodBuf b) : callEncode w.svc sup n x h b = some (hencode w n x h b) :=
  callEncode_eq w sup n x h b hl hb (by rcases (C78_encode w n h hh x hx b).2 with e | e | e | e <;> rw [e] <;> simp)

/-- **C82.** The same for `decode`, into any message of the heap, from any bytes. -/
theorem C82_decode (svc : Registry) (sup : Suppliers) (n : Nat) (h : Heap) (hh : TypedHeap h) (hs : TypedSups h sup) (r : Nat) (c : Cls) (ys : List HVal)
    (hr : h[r]? = some (.msg c ys)) (b : RBuf) : callDecode svc sup n (.ref r) h b = some (hdecode sup n r h b) :=
  callDecode_eq svc sup (refSups_of_typed hs) n r h b c ys hr
    (by rcases (C78_decode sup n h hh hs r c ys hr b).2 with e | e | e | e | e <;> rw [e] <;> simp)

/-- **C82.** `encode` and `decode` of every class always come to an end: the statements never run forever. -/
theorem C82_ends (w : World) (hw : TypedSuppliers w) (n : Nat) (h : Heap) (hh : TypedHeap h) (hl : ListsFit h) (r : Nat) (c : Cls) (ys : List HVal)
    (hr : h[r]? = some (.msg c ys)) (b : WBuf) (hb : GoodBuf b) (b' : RBuf) :
    callEncode w.svc w.suppliers n (.ref r) h b ≠ none ∧ callDecode w.svc w.suppliers n (.ref r) h b' ≠ none := by
  rw [C82_encode w _ n h hh hl _ (.codec hr) b hb, C82_decode w.svc _ n h hh (typed_suppliers hw h) r c ys hr b']
  simp

/-- **C82.** A message that shows the content `v`: what the statements of `encode` write, and the exception they throw, are those of `encode` on the content
(the subject of C22, C30, ...), however the objects are shared. -/
theorem C82_bytes (w : World) (sup : Suppliers) (n : Nat) (h : Heap) (hl : ListsFit h) (v : Val) (x : HVal) (hs : Shows h v x) (hv : wellTyped v = true)
    (b : WBuf) (hb : b.Valid) (hcap : b.maxCap < 2 ^ 31) :
    ∃ h', callEncode w.svc sup n x h b = some (h', (encode w n v b).2) := by
  have he := C64_shared_bytes w n h v x b hs
  have hok : (hencode w n x h b).2.2 ≠ some .illTyped := by
    rw [he]
    rcases C30_outcomes w n v b hv hb with e | e | ⟨e, -⟩ | ⟨e, -⟩ <;> rw [e] <;> simp
  refine ⟨(hencode w n x h b).1, ?_⟩
  rw [callEncode_eq w sup n x h b hl ⟨hb.2, hcap⟩ hok, ← he]

/-- **C82.** The statements of `decode`, called on a new object: reader index and exception are those of `decode`, and the object shows its result. -/
theorem C82_new (w : World) (hw : TypedSuppliers w) (n : Nat) (c : Cls) (h : Heap) (hh : TypedHeap h) (b : RBuf) :
    ∃ h', callDecode w.svc w.suppliers n (.ref h.length) (h ++ [newMsg c]) b = some (h', (decode w n c (freshFields c) b).2)
      ∧ Unshared h' (.obj c (decode w n c (freshFields c) b).1) (.ref h.length) ∧ ∀ q < h.length, h'[q]? = h[q]? := by
  obtain ⟨h1, h2, h3, -⟩ := C65_new w n c h b
  refine ⟨(hdecode w.suppliers n h.length (h ++ [newMsg c]) b).1, ?_, h3, h2⟩
  rw [C82_decode w.svc _ n _ (typed_new hh c) (typed_suppliers hw _) h.length c _ (append_last h _) b, ← h1]

/-- **C82 (round trip of the statements).** Run the statements of `encode` on a message whose content is canonical; run the statements of `decode` on a new
object of its class, in another heap, on the bytes that were written, whatever surrounds them: the new object shows the content the message has after `encode`, and exactly
these bytes were consumed. -/
theorem C82_round_trip (ws wr : World) (hw : TypedSuppliers wr) (n m : Nat) (c : Cls) (fs : List Val) (h : Heap) (hl : ListsFit h) (x : HVal)
    (hs : Shows h (.obj c fs) x) (b : WBuf) (hv : wellTyped (.obj c fs) = true) (hb : b.Valid) (hcap : b.maxCap < 2 ^ 31)
    (hcan : canonical wr (.obj c fs)) (hm : depth (.obj c fs) ≤ m) (k : Heap) (hk : TypedHeap k)
    (h' : Heap) (b' : WBuf) (hok : callEncode ws.svc ws.suppliers n x h b = some (h', b', none)) :
    ∃ bytes fs', b'.data = b.data ++ bytes ∧ settle ws.svc b.readable (.obj c fs) = .obj c fs' ∧
      ∀ before after spare, ∃ k',
        callDecode wr.svc wr.suppliers m (.ref k.length) (k ++ [newMsg c]) ⟨before ++ bytes ++ after, spare, before.length⟩
          = some (k', ⟨before ++ bytes ++ after, spare, before.length + bytes.length⟩, none)
        ∧ Unshared k' (.obj c fs') (.ref k.length) := by
  obtain ⟨h'', he⟩ := C82_bytes ws ws.suppliers n h hl _ x hs hv b hb hcap
  rw [hok] at he
  simp only [Option.some.injEq, Prod.mk.injEq] at he
  have hok' : (encode ws n (.obj c fs) b).2.2 = none := by rw [← he.2]
  have hb' : (encode ws n (.obj c fs) b).2.1 = b' := by rw [← he.2]
  obtain ⟨bytes, fs', h1, h2, h3⟩ := C23_round_trip ws wr n m c fs b hv hb hok' hcan hm
  rw [hb'] at h1
  rw [(C22_encode_appends_image ws n _ b hv hb hok').2.2.2] at h2
  refine ⟨bytes, fs', h1, h2, fun before after spare => ?_⟩
  obtain ⟨k', g1, g2, -⟩ := C82_new wr hw m c k hk ⟨before ++ bytes ++ after, spare, before.length⟩
  rw [h3] at g1 g2
  exact ⟨k', g1, g2⟩

/-- The lists of `sharedHeap` (Props/Heap.lean) are short. -/
theorem sharedHeap_fits : ListsFit sharedHeap := by
  intro a xs h
  match a with
  | 0 | 3 | 4 => simp [sharedHeap] at h
  | 1 | 2 => simp [sharedHeap] at h; subst h; decide
  | k + 5 => simp [sharedHeap] at h

/-- Running the statements on the message with one sub-packet object in four places writes it four times. -/
example : (callEncode World.initial.svc World.initial.suppliers 4 (.ref 4) sharedHeap ⟨[9], 0, 100⟩).map (fun o => (o.2.1.data, o.2.2))
    = some ([9] ++ [7, 0, 0, 0, 1, 0, 5, 0] ++ [3, 0] ++ [7, 0, 0, 0, 1, 0, 5, 0] ++ [7, 0, 0, 0, 1, 0, 5, 0] ++ [7, 0, 0, 0, 1, 0, 5, 0] ++ [9, 0, 0, 0, 1, 0, 5, 0], none) := by
  rw [callEncode_eq World.initial _ 4 (.ref 4) sharedHeap _ sharedHeap_fits (by constructor <;> decide) (by decide +kernel)]
  decide +kernel

/-- A frame that is its own body: the calls go deeper until the stack is used up. -/
example : (callEncode World.initial.svc World.initial.suppliers 5 (.ref 0) [.msg .sample_RootPacket [.num ⟨.i16, 1⟩, .num ⟨.i32, 0⟩, .ref 0, .num ⟨.i32, 0⟩]]
    ⟨[], 0, 100⟩).map (fun o => (o.2.1.data.length, o.2.2)) = some (30, some .stackOverflow) := by
  rw [callEncode_eq World.initial _ 5 (.ref 0) _ _ ?_ (by constructor <;> decide) (by decide +kernel)]
  · decide +kernel
  · intro a xs h
    match a with
    | 0 => simp at h
    | k + 1 => simp at h

theorem initial_refs : RefSups World.initial.suppliers := by
  have h : TypedSups [] World.initial.suppliers := typed_suppliers C28_default_world.1 []
  exact refSups_of_typed h

/-- Running the statements of `decode` on the bytes of a frame with a nested packet: four new objects, one of them a list; and on its first 14 bytes. -/
example :
    (callDecode World.initial.svc World.initial.suppliers 4 (.ref 0) [newMsg .sample_RootPacket]
        ⟨[3, 0, 99, 0, 0, 0, 7, 0, 0, 0, 1, 0, 5, 0, 0, 0, 9, 0, 0, 0, 0, 0, 8, 0, 0, 0, 77], [], 0⟩).map (fun o => (o.1.map HObj.values, o.2.1.rd, o.2.2))
      = some ([[.num ⟨.i16, 3⟩, .num ⟨.i32, 99⟩, .ref 1, .num ⟨.i32, 8⟩], [.ref 2, .null, .ref 4], [.num ⟨.i32, 7⟩, .ref 3], [.num ⟨.i16, 5⟩], [.num ⟨.i32, 9⟩, .null]], 26, none)
    ∧ (callDecode World.initial.svc World.initial.suppliers 4 (.ref 0) [newMsg .sample_RootPacket]
        ⟨[3, 0, 99, 0, 0, 0, 7, 0, 0, 0, 1, 0, 5, 0], [], 0⟩).map (fun o => (o.1.map HObj.values, o.2.1.rd, o.2.2))
      = some ([[.num ⟨.i16, 3⟩, .num ⟨.i32, 99⟩, .ref 1, .num ⟨.i32, 0⟩], [.ref 2, .null, .null], [.num ⟨.i32, 7⟩, .ref 3], [.num ⟨.i16, 5⟩]], 14, some .indexOutOfBounds) := by
  rw [callDecode_eq _ _ initial_refs 4 0 _ _ _ _ rfl (by decide +kernel), callDecode_eq _ _ initial_refs 4 0 _ _ _ _ rfl (by decide +kernel)]
  decide +kernel

private theorem newFrame_typed : TypedHeap [newMsg .sample_RootPacket] := typed_new typed_empty _

private theorem newFrame_fits : ListsFit [newMsg .sample_RootPacket] := by
  intro a xs h
  match a with
  | 0 => simp [newMsg] at h
  | k + 1 => simp at h

/-- A packet with a list of one number. -/
private def oneShort : Heap := [.msg .sample_SubPacket [.num ⟨.i32, 7⟩, .ref 1], .arr [.num ⟨.i16, 5⟩]]

private theorem oneShort_fits : ListsFit oneShort := by
  intro a xs h
  match a with
  | 0 => simp [oneShort] at h
  | 1 => simp [oneShort] at h; subst h; decide
  | k + 2 => simp [oneShort] at h

/-- The theorems on a new frame, on the message with one sub-packet object in four places, and on the packet. -/
example := C82_encode World.initial World.initial.suppliers 3 _ newFrame_typed newFrame_fits (.ref 0) (.codec rfl) ⟨[9], 0, 100⟩ ⟨by decide, by decide⟩
example := C82_decode World.initial.svc World.initial.suppliers 3 _ newFrame_typed (typed_suppliers C28_default_world.1 _) 0 _ _ rfl ⟨[3, 0, 1], [], 0⟩
example := C82_ends World.initial C28_default_world.1 3 _ newFrame_typed newFrame_fits 0 _ _ rfl ⟨[9], 0, 100⟩ ⟨by decide, by decide⟩ ⟨[3, 0, 1], [], 0⟩
example := C82_bytes World.initial World.initial.suppliers 3 sharedHeap sharedHeap_fits sharedVal (.ref 4) (by decide +kernel) (by decide +kernel)
  ⟨[9], 0, 100⟩ ⟨by decide, by decide⟩ (by decide)
example := C82_new World.initial C28_default_world.1 3 .sample_NestedPacket _ newFrame_typed ⟨[3, 0, 1], [], 0⟩
example (h' : Heap) (b' : WBuf) := C82_round_trip World.initial World.initial C28_default_world.1 3 3 .sample_SubPacket
  [.num ⟨.i32, 7⟩, .list [.num ⟨.i16, 5⟩]] oneShort oneShort_fits (.ref 0) (by decide +kernel) ⟨[9], 0, 100⟩ (by decide +kernel) ⟨by decide, by decide⟩
  (by decide) ⟨trivial, ⟨by simp, (by decide : countFits .i16 1), trivial, trivial⟩, trivial⟩ (by decide +kernel) _ newFrame_typed h' b'

/-- … and its last hypothesis: the call returns normally. -/
example : (callEncode World.initial.svc World.initial.suppliers 3 (.ref 0) oneShort ⟨[9], 0, 100⟩).map (fun o => (o.2.1.data, o.2.2))
    = some ([9, 7, 0, 0, 0, 1, 0, 5, 0], none) := by
  rw [callEncode_eq World.initial _ 3 (.ref 0) oneShort _ oneShort_fits (by constructor <;> decide) (by decide +kernel)]
  decide +kernel

end FinProto
