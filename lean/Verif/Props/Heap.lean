import Verif.Proofs.HeapEncode
import Verif.Proofs.HeapDecode
import Verif.Proofs.HeapCheck
import Verif.Model.Factory
/-
C64–C66: messages that share parts.
-/
namespace FinProto

/-! ### C64: encode -/

/-- **C64.** Encoding an object whose parts may be shared in any way (the same header in two places, a list that contains one message
twice, parts that belong to other messages as well) writes the same bytes and throws the same exception as encoding the
same content without sharing. -/
theorem C64_shared_bytes (w : World) (n : Nat) (h : Heap) (v : Val) (x : HVal) (b : WBuf) (hs : Shows h v x) :
    (hencode w n x h b).2 = (encode w n v b).2 :=
  (hencode_sim w n v x h b (shows_sim w h v x hs)).1

/-- **C64.** On any heap, cyclic ones included, `encode` changes nothing but computed fields (byte counts, and checksums whose algorithm is
available), whether it succeeds or throws. -/
theorem C64_changes (w : World) (n : Nat) (h : Heap) (x : HVal) (b : WBuf) :
    SameButComputed w.svc h (hencode w n x h b).1 :=
  chg_same (hencode_chg w n x h b)

/-- Two sub-packets fields and a list with three entries, all the same object. -/
def sharedHeap : Heap :=
  [.msg .sample_SubPacket [.num ⟨.i32, 7⟩, .ref 1], .arr [.num ⟨.i16, 5⟩], .arr [.ref 0, .ref 0, .ref 0],
   .msg .sample_NestedPacket_InerPacket [.num ⟨.i32, 9⟩, .ref 1], .msg .sample_NestedPacket [.ref 0, .ref 2, .ref 3]]

def sharedSub : Val := .obj .sample_SubPacket [.num ⟨.i32, 7⟩, .list [.num ⟨.i16, 5⟩]]

def sharedVal : Val := .obj .sample_NestedPacket [sharedSub, .list [sharedSub, sharedSub, sharedSub],
  .obj .sample_NestedPacket_InerPacket [.num ⟨.i32, 9⟩, .list [.num ⟨.i16, 5⟩]]]

example : Shows sharedHeap sharedVal (.ref 4) := by
  decide +kernel

example : (hencode World.initial 3 (.ref 4) sharedHeap ⟨[], 0, 100⟩).2.2 = none
    ∧ (hencode World.initial 3 (.ref 4) sharedHeap ⟨[], 0, 100⟩).2.1.data.length = 42 := by decide +kernel

/-- A frame inside a frame, the inner one used twice over: its byte count is updated, nothing else. -/
example : (hencode World.initial 4 (.ref 2) [.msg .sample_SubPacket [.num ⟨.i32, 7⟩, .null], .msg .sample_RootPacket
      [.num ⟨.i16, 3⟩, .num ⟨.i32, 0⟩, .ref 0, .num ⟨.i32, 0⟩], .msg .sample_RootPacket [.num ⟨.i16, 3⟩, .num ⟨.i32, 0⟩, .ref 1, .num ⟨.i32, 0⟩]]
      ⟨[], 0, 100⟩).1.map (fun o => o.values[1]?) = [some .null, some (.num ⟨.i32, 6⟩), some (.num ⟨.i32, 16⟩)] := by decide +kernel

/-! ### C65: decode into a new object -/

/-- **C65.** Decoding into a new object, with suppliers that build new objects: outcome and content are those of `decode` on values; every object
that existed before is untouched; and the message consists of new objects only, no object occurring in it twice. -/
theorem C65_new (w : World) (n : Nat) (c : Cls) (h : Heap) (b : RBuf) :
    let o := hdecode w.suppliers n h.length (h ++ [newMsg c]) b;
    let t := decode w n c (freshFields c) b;
    o.2 = t.2 ∧ (∀ q < h.length, o.1[q]? = h[q]?) ∧ Unshared o.1 (.obj c t.1) (.ref h.length)
      ∧ ∀ q, Reach o.1 (.ref h.length) q → h.length ≤ q := by
  obtain ⟨hf1, hf2⟩ := newMsg_spec c h
  obtain ⟨hres, hgrow, hkeep⟩ := hdecode_ok w n c (freshFields c) h.length (h ++ [newMsg c]) b hf1
  have hlen : (h ++ [newMsg c]).length = h.length + 1 := by simp
  refine ⟨hres, fun q hq => ?_, hgrow.own, fun q hq => ?_⟩
  · rw [hkeep q (by omega) ?_, getElem?_append_lt _ _ _ hq]
    intro hm
    have := parts_sub _ _ _ hf1.1 q hm
    rw [hf2] at this
    have : q = h.length := by simpa using this
    omega
  · rw [← refs_iff_reach _ _ _ hgrow.own.1] at hq
    rcases hgrow.sub q hq with hm | hm
    · rw [fresh] at hf2
      rw [hf2] at hm
      have : q = h.length := by simpa using hm
      omega
    · omega

/-- **C65.** Two messages decoded one after the other share nothing, and the first is untouched by the second `decode`. -/
theorem C65_independent (w : World) (n m : Nat) (c d : Cls) (h : Heap) (b b' : RBuf) :
    let o := hdecode w.suppliers n h.length (h ++ [newMsg c]) b;
    let p := hdecode w.suppliers m o.1.length (o.1 ++ [newMsg d]) b';
    Shows p.1 (.obj c (decode w n c (freshFields c) b).1) (.ref h.length)
      ∧ Shows p.1 (.obj d (decode w m d (freshFields d) b').1) (.ref o.1.length)
      ∧ ∀ q, Reach p.1 (.ref h.length) q → ¬ Reach p.1 (.ref o.1.length) q := by
  intro o p
  obtain ⟨_, h2, h3, h4⟩ := C65_new w n c h b
  obtain ⟨_, g2, g3, g4⟩ := C65_new w m d o.1 b'
  have hk : ∀ q ∈ refs o.1 (.obj c (decode w n c (freshFields c) b).1) (.ref h.length), p.1[q]? = o.1[q]? :=
    fun q hq => g2 q (refs_lt _ _ _ h3.1 q hq)
  obtain ⟨k1, k2⟩ := shows_frame o.1 p.1 _ _ h3.1 hk
  refine ⟨k1, g3.1, fun q hq hq' => ?_⟩
  rw [← refs_iff_reach _ _ _ k1, k2] at hq
  have h5 := refs_lt _ _ _ h3.1 q hq
  have h6 := g4 q hq'
  exact absurd h5 (by show ¬ q < o.1.length; omega)

/-- 14 bytes of a nested packet (one list element), decoded into the fifth object of a heap. -/
example : (hdecode World.initial.suppliers 3 5 (sharedHeap ++ [newMsg .sample_NestedPacket])
      ⟨[1, 0, 0, 0, 0, 0, 1, 0, 2, 0, 0, 0, 1, 0, 8, 0, 3, 0, 0, 0, 0, 0], [], 0⟩).1.drop 5 =
    [.msg .sample_NestedPacket [.ref 6, .ref 7, .ref 10], .msg .sample_SubPacket [.num ⟨.i32, 1⟩, .null], .arr [.ref 8],
     .msg .sample_SubPacket [.num ⟨.i32, 2⟩, .ref 9], .arr [.num ⟨.i16, 8⟩], .msg .sample_NestedPacket_InerPacket [.num ⟨.i32, 3⟩, .null]] := by
  decide +kernel

/-! ### C66: decode into an object in use -/

/-- **C66.** Decoding into a message that has no internal sharing does to it what `decode` does to the value it shows, and it still has no
internal sharing afterwards. -/
theorem C66_reuse (w : World) (n : Nat) (c : Cls) (fs : List Val) (r : Nat) (h : Heap) (b : RBuf) (ho : Unshared h (.obj c fs) (.ref r)) :
    (hdecode w.suppliers n r h b).2 = (decode w n c fs b).2
      ∧ Unshared (hdecode w.suppliers n r h b).1 (.obj c (decode w n c fs b).1) (.ref r) := by
  obtain ⟨h1, h2, h3⟩ := hdecode_ok w n c fs r h b ho
  exact ⟨h1, h2.own⟩

/-- **C66.** Another object, which may share lists and list elements with the message, shows after the decode what it showed before, unless it
uses the message itself or one of its nested messages. -/
theorem C66_others (w : World) (n : Nat) (c : Cls) (fs : List Val) (r : Nat) (h : Heap) (b : RBuf) (ho : Unshared h (.obj c fs) (.ref r))
    (u : Val) (y : HVal) (hu : Shows h u y) (hy : ∀ q, Reach h y q → q ∉ parts h (.obj c fs) (.ref r)) :
    Shows (hdecode w.suppliers n r h b).1 u y := by
  obtain ⟨_, _, h3⟩ := hdecode_ok w n c fs r h b ho
  exact (shows_frame h _ u y hu (fun q hq => h3 q (refs_lt h u y hu q hq) (hy q ((refs_iff_reach h u y hu q).1 hq)))).1

theorem parts_msg (h : Heap) (v : Val) : ∀ x, Shows h v x → ∀ q ∈ parts h v x, ∃ c ys, h[q]? = some (.msg c ys) := by
  apply Val.rec
    (motive_1 := fun v => ∀ x, Shows h v x → ∀ q ∈ parts h v x, ∃ c ys, h[q]? = some (.msg c ys))
    (motive_2 := fun vs => ∀ ys, ShowsAll h vs ys → ∀ q ∈ partsAll h vs ys, ∃ c ys, h[q]? = some (.msg c ys))
  · intro x hx q hq; simp [parts] at hq
  · intro n x hx q hq; simp [parts] at hq
  · intro s x hx q hq; simp [parts] at hq
  · intro xs ih x hx q hq; simp [parts] at hq
  · intro c fs ih x hx q hq
    rw [Shows] at hx
    obtain ⟨a, ys, rfl, ha, hall⟩ := hx
    rw [parts_obj h c fs a c ys ha, List.mem_cons] at hq
    rcases hq with rfl | hq
    · exact ⟨c, ys, ha⟩
    · exact ih ys hall q hq
  · intro ys hy q hq; simp [partsAll] at hq
  · intro v vs ih1 ih2 ys hy q hq
    rw [ShowsAll] at hy
    obtain ⟨z, zs, rfl, hz, hzs⟩ := hy
    rw [partsAll, List.mem_append] at hq
    rcases hq with hq | hq
    · exact ih1 z hz q hq
    · exact ih2 zs hzs q hq

/-- **C66.** No list is ever changed: a list taken from the message before it is decoded into again keeps its elements. -/
theorem C66_lists (w : World) (n : Nat) (c : Cls) (fs : List Val) (r : Nat) (h : Heap) (b : RBuf) (ho : Unshared h (.obj c fs) (.ref r))
    (a : Nat) (xs : List HVal) (ha : h[a]? = some (.arr xs)) : (hdecode w.suppliers n r h b).1[a]? = some (.arr xs) := by
  obtain ⟨_, _, h3⟩ := hdecode_ok w n c fs r h b ho
  rw [h3 a (List.getElem?_eq_some_iff.1 ha).1 ?_, ha]
  intro hm
  obtain ⟨c', ys, hq⟩ := parts_msg h _ _ ho.1 a hm
  rw [ha] at hq
  cases hq

/-- A used message without internal sharing; the message at 5 shares its list (at 2). -/
def usedHeap : Heap :=
  [.msg .sample_SubPacket [.num ⟨.i32, 7⟩, .null], .msg .sample_SubPacket [.num ⟨.i32, 8⟩, .null], .arr [.ref 1],
   .msg .sample_NestedPacket_InerPacket [.num ⟨.i32, 9⟩, .null], .msg .sample_NestedPacket [.ref 0, .ref 2, .ref 3],
   .msg .sample_NestedPacket [.null, .ref 2, .null]]

def usedVal : Val := .obj .sample_NestedPacket [.obj .sample_SubPacket [.num ⟨.i32, 7⟩, .null],
  .list [.obj .sample_SubPacket [.num ⟨.i32, 8⟩, .null]], .obj .sample_NestedPacket_InerPacket [.num ⟨.i32, 9⟩, .null]]

theorem usedHeap_unshared : Unshared usedHeap usedVal (.ref 4) := by
  decide +kernel

example : parts usedHeap usedVal (.ref 4) = [4, 0, 3] := by decide +kernel

example : Shows usedHeap (.obj .sample_NestedPacket [.null, .list [.obj .sample_SubPacket [.num ⟨.i32, 8⟩, .null]], .null]) (.ref 5) := by
  decide +kernel

/-- With a shared nested message the expectation "decoding into one message leaves the other messages as they are" is false: the sub-packet of
the message at 2 is overwritten by decoding into the message at 1. -/
theorem C66_shared_part_violated : ¬ ∀ (n : Nat) (c : Cls) (fs : List Val) (r q : Nat) (h : Heap) (b : RBuf) (u : Val),
    Unshared h (.obj c fs) (.ref r) → Shows h u (.ref q) → ¬ Reach h (.ref r) q → ¬ Reach h (.ref q) r →
      Shows (hdecode World.initial.suppliers n r h b).1 u (.ref q) := by
  intro hall
  have hs : Shows [.msg .sample_SubPacket [.num ⟨.i32, 7⟩, .null], .msg .sample_NestedPacket [.ref 0, .null, .null],
      .msg .sample_NestedPacket [.ref 0, .null, .null]]
      (.obj .sample_NestedPacket [.obj .sample_SubPacket [.num ⟨.i32, 7⟩, .null], .null, .null]) (.ref 2) := by decide +kernel
  have ho : Unshared [.msg .sample_SubPacket [.num ⟨.i32, 7⟩, .null], .msg .sample_NestedPacket [.ref 0, .null, .null],
      .msg .sample_NestedPacket [.ref 0, .null, .null]]
      (.obj .sample_NestedPacket [.obj .sample_SubPacket [.num ⟨.i32, 7⟩, .null], .null, .null]) (.ref 1) := by decide +kernel
  have hx := hall 3 .sample_NestedPacket _ 1 2 _ ⟨[1, 0, 0, 0, 0, 0, 0, 0, 3, 0, 0, 0, 0, 0], [], 0⟩ _ ho hs
    (by rw [← refs_iff_reach _ _ _ ho.1]; decide +kernel) (by rw [← refs_iff_reach _ _ _ hs]; decide +kernel)
  revert hx
  decide +kernel

/-- A supplier that hands out one instance again and again, registered for the sample protocol's message type 1. -/
def sharingSuppliers : Suppliers := fun _ _ => some (.give (.ref 0))

/-- … makes C65 false: the second decode changes the payload of the first message. -/
theorem C65_shared_supplier_violated : ∃ (h : Heap) (b b' : RBuf),
    let o := hdecode sharingSuppliers 3 h.length (h ++ [newMsg .sample_RootPacket]) b;
    let p := hdecode sharingSuppliers 3 o.1.length (o.1 ++ [newMsg .sample_RootPacket]) b';
    o.2.2 = none ∧ p.2.2 = none ∧ o.1.field h.length 2 = some (.ref 0) ∧ p.1.field o.1.length 2 = some (.ref 0)
      ∧ o.1.field 0 0 = some (.num ⟨.i32, 5⟩) ∧ p.1.field 0 0 = some (.num ⟨.i32, 6⟩) :=
  ⟨[.msg .sample_SubPacket [.num ⟨.i32, 0⟩, .null]], ⟨[1, 0, 0, 0, 0, 0, 5, 0, 0, 0, 0, 0, 0, 0, 0, 0], [], 0⟩,
    ⟨[1, 0, 0, 0, 0, 0, 6, 0, 0, 0, 0, 0, 0, 0, 0, 0], [], 0⟩, by decide +kernel⟩

/-- C64 and C66 on the heaps above. -/
example := C64_shared_bytes World.initial 3 sharedHeap sharedVal (.ref 4) ⟨[], 0, 100⟩ (by decide +kernel)
example := C66_reuse World.initial 3 _ _ 4 usedHeap ⟨[1, 0, 0, 0, 0, 0, 1, 0, 2, 0, 0, 0, 1, 0, 8, 0, 3, 0, 0, 0, 0, 0], [], 0⟩ usedHeap_unshared
example := C66_lists World.initial 3 _ _ 4 usedHeap ⟨[1, 0, 0, 0, 0, 0, 1, 0, 2, 0, 0, 0, 1, 0, 8, 0, 3, 0, 0, 0, 0, 0], [], 0⟩ usedHeap_unshared 2 [.ref 1] rfl

/-- `C66_others`: the other message shares only a list with the receiver. -/
example : Shows (hdecode World.initial.suppliers 3 4 usedHeap ⟨[1, 0, 0, 0, 0, 0, 1, 0, 2, 0, 0, 0, 1, 0, 8, 0, 3, 0, 0, 0, 0, 0], [], 0⟩).1
    (.obj .sample_NestedPacket [.null, .list [.obj .sample_SubPacket [.num ⟨.i32, 8⟩, .null]], .null]) (.ref 5) := by
  have hy : Shows usedHeap (.obj .sample_NestedPacket [.null, .list [.obj .sample_SubPacket [.num ⟨.i32, 8⟩, .null]], .null]) (.ref 5) := by decide +kernel
  refine C66_others World.initial 3 _ _ 4 usedHeap _ usedHeap_unshared _ _ hy fun q hq => ?_
  rw [← refs_iff_reach _ _ _ hy] at hq
  revert q
  decide +kernel

end FinProto
