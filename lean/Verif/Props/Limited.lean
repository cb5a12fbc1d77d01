import Verif.Proofs.Limited
import Verif.Proofs.LimitedKept
import Verif.Proofs.AnyHeap
import Verif.Proofs.RacingHeap
import Verif.Props.HeapAfter
import Verif.Props.AnyDecode
import Verif.Props.RoundTrip
import Verif.Props.Retry
import Verif.Props.DecodeErrors
/-
C119: other threads that can get at objects only through references they have.
-/
namespace FinProto

/-! A memory in which a packet (at 0) with its list (at 1) is mine, and a packet (at 2) with its list (at 3) is somebody else's. -/

private def shop : Heap :=
  [.msg .sample_SubPacket [.num ⟨.i32, 7⟩, .ref 1], .arr [.num ⟨.i16, 5⟩, .num ⟨.i16, 6⟩], .msg .sample_SubPacket [.num ⟨.i32, 8⟩, .ref 3], .arr []]

/-- The others have the packet at 2.  Whenever they are on turn they make a list and set it in the packet. -/
private def busy : Acts := fun k g =>
  if 2 < g.length then g.set 2 (.msg .sample_SubPacket [.num (.int (BitVec.ofNat 32 k)), .ref g.length]) ++ [.arr []] else g

private theorem busy_limited : Limited (· = 2) busy := by
  intro k g
  unfold busy
  split
  · next hlt =>
    refine ⟨by simp, fun q hq hn => ?_, fun q ob hq ho p hp => ?_⟩
    · rw [List.getElem?_append_left (by simpa using hq), List.getElem?_set_ne]
      rintro rfl
      exact hn ⟨2, rfl, .here 2⟩
    · by_cases h2 : q = 2
      · subst h2
        rw [List.getElem?_append_left (by simpa using hlt), List.getElem?_set_self hlt] at ho
        cases ho
        simp [HObj.values] at hp
        exact .inr ⟨by omega, by simp; omega⟩
      · by_cases hl : q < g.length
        · rw [List.getElem?_append_left (by simpa using hl), List.getElem?_set_ne (Ne.symm h2)] at ho
          rcases hq with ⟨a, ha, hr⟩ | hq
          · exact .inl ⟨a, ha, reach_of_value hr ho hp⟩
          · omega
        · rw [List.getElem?_append_right (by simp; omega)] at ho
          have := List.mem_of_getElem? ho
          simp at this; subst this
          simp [HObj.values] at hp
  · exact ⟨Nat.le_refl _, fun _ _ _ => rfl, fun q ob hq ho p hp => by
      rcases hq with ⟨a, ha, hr⟩ | hq
      · exact .inl ⟨a, ha, reach_of_value hr ho hp⟩
      · rw [List.getElem?_eq_none hq] at ho; cases ho⟩

private def packet : Val := .obj .sample_SubPacket [.num ⟨.i32, 7⟩, .list [.num ⟨.i16, 5⟩, .num ⟨.i16, 6⟩]]

private theorem shop_packet : Unshared shop packet (.ref 0) := ⟨by decide +kernel, by decide +kernel⟩

private theorem shop_divided : Divided (· = 2) shop (.ref 0) := by
  have h0 : ∀ q, Reach shop (.ref 0) q → q ∈ [0, 1] := fun q hq => (refs_iff_reach _ _ _ shop_packet.1 q).2 hq
  have h2 : ∀ q, Theirs (· = 2) shop q → q ∈ [2, 3] := by
    rintro q ⟨a, rfl, hq⟩
    exact (refs_iff_reach shop (.obj .sample_SubPacket [.num ⟨.i32, 8⟩, .list []]) (.ref 2) (by decide +kernel) q).2 hq
  refine ⟨fun q hq => ?_, fun q hq => ?_, fun q hq ht => ?_⟩
  · have := h0 q hq; simp at this; show q < 4; omega
  · have := h2 q hq; simp at this; show q < 4; omega
  · have h3 := h0 q hq; have h4 := h2 q ht; simp at h3 h4; omega

private theorem shop_fit : HListsFit shop := by
  intro a xs h
  have : ∀ ob ∈ shop, (match ob with | .arr xs => xs.length | _ => 0) ≤ 2147483647 := by decide +kernel
  exact this _ (List.mem_of_getElem? h)

/-- **C119.** A thread encodes a message.  The others start with references to some objects, none of which the message consists of, nor can they reach one.  They may change
all they can reach, make objects and link them as they like, at any time.  Then `encode` puts the same bytes into the buffer and throws the same exception, if any, as
when nobody does anything, and leaves the same in the objects of the message; and afterwards the others still cannot reach the message. -/
theorem C119_encode (w : World) (R : Nat → Prop) (o : Acts) (ho : Limited R o) (n : Nat) (x : HVal) (h : Heap) (hd : Divided R h x) (hfit : HListsFit h)
    (k : Nat) (b : WBuf) :
    (aencode w o n x h k b).2.2 = (hencode w n x h b).2 ∧ (∀ q, Reach h x q → (aencode w o n x h k b).1[q]? = (hencode w n x h b).1[q]?) ∧
      Divided R (aencode w o n x h k b).1 x := by
  have hC := Limit.confined (P := fun _ => True) (fun _ _ _ _ => trivial) ho (fun _ _ _ => trivial) h x
  obtain ⟨h1, h2⟩ := Wide.aencode_off hC w n x h h k b Wide.reach_root (Wide.off_start ⟨Limit.sep_start hd trivial, hd.mine⟩)
  have h3 : (aencode w AStill n x h k b).1 = (hencode w n x h b).1 ∧ (aencode w AStill n x h k b).2.2 = (hencode w n x h b).2 := by
    have e1 : AStill = fun k h => hsetAll h ((fun _ => [] : HOthers) k) := rfl
    have e2 := rhencode_nobody w n x h k b hfit
    rw [e1, aencode_acts]
    exact ⟨congrArg (·.1) e2, congrArg (·.2) e2⟩
  refine ⟨by rw [h2]; exact h3.2, fun q hq => by rw [h1.same q (fun hn => hn hq), h3.1], ?_⟩
  obtain ⟨⟨⟨T, t1, t2, t3, t4⟩, _⟩, hlt⟩ := h1.about
  have hin : ∀ q, Reach (aencode w o n x h k b).1 x q → Reach h x q := by
    have key : ∀ {y : HVal} {q : Nat}, Reach (aencode w o n x h k b).1 y q → Free (fun q => ¬ Reach h x q) y → Reach h x q := by
      intro y q hr
      induction hr with
      | here r => exact fun hx => Classical.not_not.1 (hx r rfl)
      | step r q ob y e1 e2 _ ih => exact fun hx => ih (h1.closed r ob (hx r rfl) e1 y e2)
    exact fun q hq => key hq Wide.reach_root
  exact ⟨fun q hq => hlt q (hin q hq), fun q hq => t2 q (Limit.theirs_closed t1 t3 hq), fun q hq ht => t4 q q ⟨rfl, hin q hq⟩ (Limit.theirs_closed t1 t3 ht)⟩

/-- **C119.** So, if the message shows a well-typed value, the bytes and the exception are those for this value, and afterwards the message shows this value with the
lengths and checksums computed. -/
theorem C119_encode_value (w : World) (R : Nat → Prop) (o : Acts) (ho : Limited R o) (n : Nat) (v : Val) (x : HVal) (h : Heap) (hd : Divided R h x) (hfit : HListsFit h)
    (k : Nat) (b : WBuf) (hs : Shows h v x) (hv : wellTyped v = true) :
    (aencode w o n x h k b).2.2 = (encode w n v b).2 ∧ Shows (aencode w o n x h k b).1 (encode w n v b).1 x := by
  have hC := Limit.confined (P := fun _ => True) (fun _ _ _ _ => trivial) ho (fun _ _ _ => trivial) h x
  obtain ⟨h1, _⟩ := Wide.aencode_off hC w n x h h k b Wide.reach_root (Wide.off_start ⟨Limit.sep_start hd trivial, hd.mine⟩)
  have h3 : (aencode w AStill n x h k b).1 = (hencode w n x h b).1 := by
    have e1 : AStill = fun k h => hsetAll h ((fun _ => [] : HOthers) k) := rfl
    rw [e1, aencode_acts]
    exact congrArg (·.1) (rhencode_nobody w n x h k b hfit)
  rw [h3] at h1
  have hs' := C88_shows w n h v x b hv hs
  refine ⟨by rw [(C119_encode w R o ho n x h hd hfit k b).1, C64_shared_bytes w n h v x b hs], (shows_frame _ _ _ _ hs' fun q hq => ?_).1⟩
  exact h1.same q (Wide.off_reach h1 ((refs_iff_reach _ _ _ hs' q).1 hq) Wide.reach_root)

/-- Encoding the packet while the others are busy with theirs. -/
example : Limited (· = 2) busy ∧ Divided (· = 2) shop (.ref 0) ∧ HListsFit shop ∧ Shows shop packet (.ref 0) ∧ wellTyped packet = true ∧
    (aencode World.initial busy 9 (.ref 0) shop 0 ⟨[], 0, 100⟩).2.2.1.data = [7, 0, 0, 0, 2, 0, 5, 0, 6, 0] ∧
    (aencode World.initial busy 9 (.ref 0) shop 0 ⟨[], 0, 100⟩).1[2]? ≠ shop[2]? ∧
    shop.length < (aencode World.initial busy 9 (.ref 0) shop 0 ⟨[], 0, 100⟩).1.length :=
  ⟨busy_limited, shop_divided, shop_fit, shop_packet.1, by decide +kernel, by decide +kernel, by decide +kernel, by decide +kernel⟩

/-- **C119.** A thread decodes into a message, among such others: `decode` reads the same bytes and throws the same exception, if any, as when nobody does anything, on any
memory; and afterwards the others still cannot reach the message, nor what the call has made for it. -/
theorem C119_decode (w : World) (R : Nat → Prop) (o : Acts) (ho : Limited R o) (n r : Nat) (h : Heap) (hd : Divided R h (.ref r)) (k : Nat) (b : RBuf) :
    (adecode w.suppliers o n r h k b).2.2 = (hdecode w.suppliers n r h b).2 ∧ Divided R (adecode w.suppliers o n r h k b).1 (.ref r) := by
  obtain ⟨σ, s1, ⟨s2, s3, s4, s5⟩, s6⟩ := Limit.decode (P := fun _ => True) (fun _ _ _ _ => trivial) ho (fun _ _ _ => trivial) w n
    (fun a b => a = b ∧ Reach h (.ref r) a) r r ⟨h, k, b⟩ ⟨h, k, b⟩ ⟨rfl, .here r⟩ ⟨reach_rel h _ hd.mine, Limit.sep_start hd trivial, rfl, rfl⟩
  obtain ⟨k', e⟩ := adecode_quiet w.suppliers n r h k b
  obtain ⟨⟨T, t1, t2, t3, t4⟩, _⟩ := s3
  simp only [ADSt.call] at s2 s5 s6 t2 t3
  rw [e] at s5 s6
  refine ⟨(Prod.ext s5 s6).symm, ⟨fun q hq => ?_, fun q hq => t2 q (Limit.theirs_closed t1 t3 hq), fun q hq ht => ?_⟩⟩
  · obtain ⟨p, hp, _⟩ := reach_to s2 hq (.ref r) (.ref (s1 r r ⟨rfl, .here r⟩))
    exact (s2.lt hp).2
  · obtain ⟨p, hp, _⟩ := reach_to s2 hq (.ref r) (.ref (s1 r r ⟨rfl, .here r⟩))
    exact t4 p q hp (Limit.theirs_closed t1 t3 ht)

/-- **C119.** So, if the message shows a value and no object occurs in it twice, then the message shows the decoded value afterwards; again no object occurs in it twice. -/
theorem C119_decode_value (w : World) (R : Nat → Prop) (o : Acts) (ho : Limited R o) (n : Nat) (c : Cls) (fs : List Val) (r : Nat) (h : Heap)
    (hd : Divided R h (.ref r)) (k : Nat) (b : RBuf) (hs : Unshared h (.obj c fs) (.ref r)) :
    (adecode w.suppliers o n r h k b).2.2 = (decode w n c fs b).2 ∧
      Unshared (adecode w.suppliers o n r h k b).1 (.obj c (decode w n c fs b).1) (.ref r) := by
  obtain ⟨σ, s1, ⟨s2, s3, s4, s5⟩, s6⟩ := Limit.decode (P := fun _ => True) (fun _ _ _ _ => trivial) ho (fun _ _ _ => trivial) w n
    (fun a b => a = b ∧ Reach h (.ref r) a) r r ⟨h, k, b⟩ ⟨h, k, b⟩ ⟨rfl, .here r⟩ ⟨reach_rel h _ hd.mine, Limit.sep_start hd trivial, rfl, rfl⟩
  obtain ⟨k', e⟩ := adecode_quiet w.suppliers n r h k b
  obtain ⟨g1, g2⟩ := C66_reuse w n c fs r h b hs
  simp only [ADSt.call] at s2
  rw [e] at s2
  exact ⟨by rw [(C119_decode w R o ho n r h hd k b).1, g1], unshared_rel s2 (.ref (s1 r r ⟨rfl, .here r⟩)) g2⟩

/-- **C119.** In particular into a new message, to which nobody else has a reference. -/
theorem C119_decode_new (w : World) (R : Nat → Prop) (o : Acts) (ho : Limited R o) (n : Nat) (c : Cls) (h : Heap) (hl : ∀ q, Theirs R h q → q < h.length)
    (k : Nat) (b : RBuf) :
    (adecode w.suppliers o n h.length (h ++ [newMsg c]) k b).2.2 = (decode w n c (freshFields c) b).2 ∧
      Unshared (adecode w.suppliers o n h.length (h ++ [newMsg c]) k b).1 (.obj c (decode w n c (freshFields c) b).1) (.ref h.length) := by
  obtain ⟨h1, h2⟩ := newMsg_spec c h
  have hin : ∀ q, Theirs R (h ++ [newMsg c]) q → Theirs R h q := fun q hq => by
    refine Limit.theirs_closed (T := Theirs R h) (fun p hp => ⟨p, hp, .here p⟩) (fun q ob ht hob p hp => ?_) hq
    rw [List.getElem?_append_left (hl q ht)] at hob
    obtain ⟨a, ha, hr⟩ := ht
    exact ⟨a, ha, reach_of_value hr hob hp⟩
  have hme : ∀ q, Reach (h ++ [newMsg c]) (.ref h.length) q → q = h.length := fun q hq => by
    rw [← refs_iff_reach _ _ _ h1.1, h2] at hq
    simpa using hq
  refine C119_decode_value w R o ho n c (freshFields c) h.length _ ⟨fun q hq => ?_, fun q hq => ?_, fun q hq ht => ?_⟩ k b h1
  · rw [hme q hq]; simp
  · have := hl q (hin q hq); simp; omega
  · have := hl q (hin q ht); have := hme q hq; omega

/-- Decoding into the packet while the others are busy with theirs.  Its new list is at another place than in a decode alone, where it is at 4. -/
example : Limited (· = 2) busy ∧ Divided (· = 2) shop (.ref 0) ∧ Unshared shop packet (.ref 0) ∧
    (adecode World.initial.suppliers busy 9 0 shop 0 ⟨[9, 0, 0, 0, 1, 0, 3, 0], [], 0⟩).1[0]? = some (.msg .sample_SubPacket [.num ⟨.i32, 9⟩, .ref 5]) ∧
    (adecode World.initial.suppliers busy 9 0 shop 0 ⟨[9, 0, 0, 0, 1, 0, 3, 0], [], 0⟩).1[5]? = some (.arr [.num ⟨.i16, 3⟩]) ∧
    (hdecode World.initial.suppliers 9 0 shop ⟨[9, 0, 0, 0, 1, 0, 3, 0], [], 0⟩).1[0]? = some (.msg .sample_SubPacket [.num ⟨.i32, 9⟩, .ref 4]) :=
  ⟨busy_limited, shop_divided, shop_packet, by decide +kernel, by decide +kernel, by decide +kernel⟩

/-- **C119.** While the thread does nothing with the message, whatever it shows stays as it is, and the others still cannot reach it. -/
theorem C119_wait (R : Nat → Prop) (o : Acts) (ho : Limited R o) (v : Val) (x : HVal) (h : Heap) (hd : Divided R h x) (k : Nat) (hs : Shows h v x) :
    Shows (o k h) v x ∧ refs (o k h) v x = refs h v x ∧ Divided R (o k h) x := by
  obtain ⟨h1, ⟨⟨T, t1, t2, t3, t4⟩, _⟩⟩ := Limit.act_sep (P := fun _ => True) ho (fun _ _ _ => trivial)
    (ρ := fun a b => a = b ∧ Reach h x a) (fun a b hab => by rw [← hab.1]; exact hd.mine a hab.2) (Limit.sep_start hd trivial) k
  obtain ⟨h2, h3⟩ := shows_frame h (o k h) v x hs fun q hq => h1 q q ⟨rfl, (refs_iff_reach h v x hs q).1 hq⟩
  have hin : ∀ q, Reach (o k h) x q → Reach h x q := fun q hq => by
    rw [← refs_iff_reach _ _ _ h2, h3] at hq
    exact (refs_iff_reach h v x hs q).1 hq
  exact ⟨h2, h3, fun q hq => Nat.lt_of_lt_of_le (hd.mine q (hin q hq)) (ho k h).1, fun q hq => t2 q (Limit.theirs_closed t1 t3 hq),
    fun q hq ht => t4 q q ⟨rfl, hin q hq⟩ (Limit.theirs_closed t1 t3 ht)⟩

/-- **C119.** A thread encodes a message whose objects occur in it only once and whose lists are not too long; how long the lists of the others are does not matter.  The bytes
and the exception are those for the value the message shows, and afterwards the message shows this value with the lengths and checksums computed, again without an
object that occurs in it twice. -/
theorem C119_encode_unshared (w : World) (R : Nat → Prop) (o : Acts) (ho : Limited R o) (n : Nat) (v : Val) (x : HVal) (h : Heap) (hd : Divided R h x)
    (hfit : listsFit v = true) (k : Nat) (b : WBuf) (hs : Unshared h v x) (hv : wellTyped v = true) :
    (aencode w o n x h k b).2.2 = (encode w n v b).2 ∧ Unshared (aencode w o n x h k b).1 (encode w n v b).1 x ∧ Divided R (aencode w o n x h k b).1 x := by
  have hC := Limit.confined (P := fun _ => True) (fun _ _ _ _ => trivial) ho (fun _ _ _ => trivial) h x
  have hO : Wide.Off (fun q => ¬ Reach h x q) (Limit.During R (fun _ => True) h x) h (Limit.onlyOf h v x) := by
    obtain ⟨_, o2, o3⟩ := Wide.off_start (h := h) (x := x) (P := Limit.During R (fun _ => True) h x) ⟨Limit.sep_start hd trivial, hd.mine⟩
    exact ⟨fun a ha => (Limit.onlyOf_same ((refs_iff_reach h v x hs.1 a).2 (Classical.not_not.1 ha))).symm, o2, o3⟩
  obtain ⟨h1, h2⟩ := Wide.aencode_off hC w n x h (Limit.onlyOf h v x) k b Wide.reach_root hO
  obtain ⟨s1, s2⟩ := shows_frame h (Limit.onlyOf h v x) v x hs.1 fun q hq => Limit.onlyOf_same hq
  have h3 : (aencode w AStill n x (Limit.onlyOf h v x) k b).1 = (hencode w n x (Limit.onlyOf h v x) b).1 ∧
      (aencode w AStill n x (Limit.onlyOf h v x) k b).2.2 = (hencode w n x (Limit.onlyOf h v x) b).2 := by
    have e1 : AStill = fun k h => hsetAll h ((fun _ => [] : HOthers) k) := rfl
    have e2 := rhencode_nobody w n x (Limit.onlyOf h v x) k b (Limit.onlyOf_fit hs.1 hfit)
    rw [e1, aencode_acts]
    exact ⟨congrArg (·.1) e2, congrArg (·.2) e2⟩
  rw [h3.1] at h1
  have hs' := C88_shows w n _ v x b hv s1
  have hv' := (C53_content_kept w n v b hv).1
  have ints : ∀ u, wellTyped u = true → intsOk u := fun u hu => by
    cases u with
    | obj c fs => exact intsOk_of_type .codec _ hu
    | _ => cases hu
  have hr := Limit.refs_chg (hencode_chg w n x _ b) v _ x (ints v hv) (ints _ hv') s1 hs'
  refine ⟨by rw [h2, h3.2, C64_shared_bytes w n _ v x b s1], unshared_frame ⟨hs', by rw [hr, s2]; exact hs.2⟩ fun q hq => ?_, ?_⟩
  · exact h1.same q (Wide.off_reach h1 ((refs_iff_reach _ _ _ hs' q).1 hq) Wide.reach_root)
  obtain ⟨⟨⟨T, t1, t2, t3, t4⟩, _⟩, hlt⟩ := h1.about
  have hin : ∀ q, Reach (aencode w o n x h k b).1 x q → Reach h x q := by
    have key : ∀ {y : HVal} {q : Nat}, Reach (aencode w o n x h k b).1 y q → Free (fun q => ¬ Reach h x q) y → Reach h x q := by
      intro y q hr
      induction hr with
      | here r => exact fun hx => Classical.not_not.1 (hx r rfl)
      | step r q ob y e1 e2 _ ih => exact fun hx => ih (h1.closed r ob (hx r rfl) e1 y e2)
    exact fun q hq => key hq Wide.reach_root
  exact ⟨fun q hq => hlt q (hin q hq), fun q hq => t2 q (Limit.theirs_closed t1 t3 hq), fun q hq ht => t4 q q ⟨rfl, hin q hq⟩ (Limit.theirs_closed t1 t3 ht)⟩

/-- **C119.** A thread keeps a message, decodes into it and encodes it any number of times, in any order, and the others are on turn before, during, between and after the
calls.  Each call leaves the same in its buffer and throws the same exception, if any, as without the others, and in the end the message shows what it would show
without them.  (No list of the message ever has more elements than a Java list can have.) -/
theorem C119_history (w : World) (hw : TypedSuppliers w) (R : Nat → Prop) (o : Acts) (ho : Limited R o) (c : Cls) (r : Nat) (us : List KeptUse) (fs : List Val) (h : Heap)
    (hd : Divided R h (.ref r)) (hs : Unshared h (.obj c fs) (.ref r)) (hv : wellTyped (.obj c fs) = true)
    (hfit : ∀ past future, us = past ++ future → listsFit (.obj c (keptAlone w c past fs).1) = true) :
    (keptAmong w o r us h).2 = (keptAlone w c us fs).2 ∧
      Unshared (keptAmong w o r us h).1 (.obj c (keptAlone w c us fs).1) (.ref r) ∧ Divided R (keptAmong w o r us h).1 (.ref r) := by
  induction us generalizing fs h with
  | nil => exact ⟨rfl, hs, hd⟩
  | cons u us ih =>
    have hnext := fun past future (e : us = past ++ future) => hfit (u :: past) future (by rw [e]; rfl)
    cases u with
    | wait k =>
      obtain ⟨h1, h2, h3⟩ := C119_wait R o ho _ _ h hd k hs.1
      exact ih fs (o k h) h3 ⟨h1, by rw [h2]; exact hs.2⟩ hv hnext
    | decode n k b =>
      obtain ⟨h1, h2⟩ := C119_decode_value w R o ho n c fs r h hd k b hs
      obtain ⟨g1, g2⟩ := ih _ _ (C119_decode w R o ho n r h hd k b).2 h2 (C28_errors w hw n c fs b hv).1 hnext
      exact ⟨by simp only [keptAmong, keptAlone]; rw [h1, g1], g2⟩
    | encode n k b =>
      obtain ⟨h1, h2, h3⟩ := C119_encode_unshared w R o ho n (.obj c fs) _ h hd (hfit [] _ rfl) k b hs hv
      have ht : fieldsHaveType (javaTypes c) fs = true := by simpa [wellTyped, hasType] using hv
      obtain ⟨gs, g1, g2, _⟩ := (encode_keeps w n).2 c fs b ht
      have e : (encode w n (.obj c fs) b).1 = .obj c (fieldsOf (encode w n (.obj c fs) b).1) := by rw [g1]; rfl
      have hv' := (C53_content_kept w n _ b hv).1
      rw [e] at h2 hv'
      obtain ⟨k1, k2⟩ := ih _ _ h3 h2 hv' hnext
      exact ⟨by simp only [keptAmong, keptAlone]; rw [h1, k1], k2⟩

private def day : List KeptUse :=
  [.wait 3, .decode 9 0 ⟨[9, 0, 0, 0, 1, 0, 3, 0], [], 0⟩, .wait 8, .encode 9 7 ⟨[], 0, 100⟩, .decode 9 5 ⟨[4, 0, 0, 0, 1], [], 0⟩, .wait 1, .encode 9 7 ⟨[], 0, 100⟩]

/-- A decode, an encode, a decode that meets a buffer that is too short, and an encode of what this has left, while the others are busy. -/
example : Limited (· = 2) busy ∧ Divided (· = 2) shop (.ref 0) ∧ Unshared shop packet (.ref 0) ∧ wellTyped packet = true ∧
    (∀ past future, day = past ++ future → listsFit (.obj .sample_SubPacket (keptAlone World.initial .sample_SubPacket past (fieldsOf packet)).1) = true) ∧
    (keptAmong World.initial busy 0 day shop).2.map
      (fun | .read b e => ([], b.rd, e) | .wrote b e => (b.data, 0, e)) =
      [([], 8, none), ([9, 0, 0, 0, 1, 0, 3, 0], 0, none), ([], 4, some .indexOutOfBounds), ([4, 0, 0, 0, 1, 0, 3, 0], 0, none)] ∧
    Shows (keptAmong World.initial busy 0 day shop).1 (.obj .sample_SubPacket [.num ⟨.i32, 4⟩, .list [.num ⟨.i16, 3⟩]]) (.ref 0) := by
  refine ⟨busy_limited, shop_divided, shop_packet, by decide +kernel, fun past future e => ?_, by decide +kernel, by decide +kernel⟩
  have : ∀ i < 8, listsFit (.obj .sample_SubPacket (keptAlone World.initial .sample_SubPacket (day.take i) (fieldsOf packet)).1) = true := by decide +kernel
  have hp : past = day.take past.length := by rw [e]; simp
  have hl : past.length < 8 := by have := congrArg List.length e; simp [day] at this; omega
  rw [hp]
  exact this _ hl

/-- **C119.** The other way round, `encode` does nothing to objects that the others can reach, also to those they make meanwhile: what they keep true of them stays true. -/
theorem C119_encode_others (w : World) (R : Nat → Prop) (o : Acts) (ho : Limited R o) (n : Nat) (x : HVal) (h : Heap) (hd : Divided R h x) (k : Nat) (b : WBuf)
    (P : Heap → Prop) (hP : AboutTheirs R P) (hs : ∀ k g, P g → P (o k g)) (hh : P h) : P (aencode w o n x h k b).1 :=
  (Wide.aencode_off (Limit.confined hP ho hs h x) w n x h h k b Wide.reach_root (Wide.off_start ⟨Limit.sep_start hd hh, hd.mine⟩)).1.about.1.about

/-- **C119.** The same for `decode`. -/
theorem C119_decode_others (w : World) (R : Nat → Prop) (o : Acts) (ho : Limited R o) (n r : Nat) (h : Heap) (hd : Divided R h (.ref r)) (k : Nat) (b : RBuf)
    (P : Heap → Prop) (hP : AboutTheirs R P) (hs : ∀ k g, P g → P (o k g)) (hh : P h) : P (adecode w.suppliers o n r h k b).1 := by
  obtain ⟨σ, _, hp, _⟩ := Limit.decode hP ho hs w n
    (fun a b => a = b ∧ Reach h (.ref r) a) r r ⟨h, k, b⟩ ⟨h, k, b⟩ ⟨rfl, .here r⟩ ⟨reach_rel h _ hd.mine, Limit.sep_start hd hh, rfl, rfl⟩
  exact hp.sep.about

/-- The packet of the others stays a packet. -/
example : ∃ ys, (adecode World.initial.suppliers busy 9 0 shop 0 ⟨[9, 0, 0, 0, 1, 0, 3, 0], [], 0⟩).1[2]? = some (.msg .sample_SubPacket ys) := by
  refine C119_decode_others _ (· = 2) busy busy_limited 9 0 shop shop_divided 0 _ (fun g => ∃ ys, g[2]? = some (.msg .sample_SubPacket ys)) (fun g g' hq h => ?_)
    (fun k g hg => ?_) ⟨_, rfl⟩
  · show ∃ ys, g'[2]? = _
    rw [hq 2 ⟨2, rfl, .here 2⟩]; exact h
  · unfold busy
    split
    · next hlt => exact ⟨_, by rw [List.getElem?_append_left (by simpa using hlt), List.getElem?_set_self hlt]⟩
    · exact hg

/-- **C119.** So messages get from one busy program to another, whatever objects the others make in both. -/
theorem C119_transfer (ws wr : World) (Rs Rr : Nat → Prop) (os or : Acts) (hos : Limited Rs os) (hor : Limited Rr or) (n m : Nat) (c : Cls) (fs : List Val) (x : HVal)
    (hs hr : Heap) (k k' : Nat) (b : WBuf) (hds : Divided Rs hs x) (hfit : HListsFit hs) (hdr : ∀ q, Theirs Rr hr q → q < hr.length)
    (hx : Shows hs (.obj c fs) x) (hv : wellTyped (.obj c fs) = true) (hb : b.Valid) (hok : (aencode ws os n x hs k b).2.2.2 = none)
    (hcan : canonical wr (.obj c fs)) (hm : depth (.obj c fs) ≤ m) :
    ∃ bytes v, (aencode ws os n x hs k b).2.2.1.data = b.data ++ bytes ∧ Shows (aencode ws os n x hs k b).1 v x ∧
      ∀ before after spare, let d := adecode wr.suppliers or m hr.length (hr ++ [newMsg c]) k' ⟨before ++ bytes ++ after, spare, before.length⟩
        d.2.2 = (⟨before ++ bytes ++ after, spare, before.length + bytes.length⟩, none) ∧ Shows d.1 v (.ref hr.length) := by
  obtain ⟨h1, h2⟩ := C119_encode_value ws Rs os hos n _ x hs hds hfit k b hx hv
  rw [h1] at hok
  obtain ⟨bytes, fs', g1, g2, g3⟩ := C23_round_trip ws wr n m c fs b hv hb hok hcan hm
  refine ⟨bytes, .obj c fs', by rw [h1, g1], by rw [← g2]; exact h2, fun before after spare => ?_⟩
  obtain ⟨k1, k2⟩ := C119_decode_new wr Rr or hor m c hr hdr k' ⟨before ++ bytes ++ after, spare, before.length⟩
  rw [g3] at k1 k2
  exact ⟨k1, k2.1⟩

/-- A packet with a list, from one such memory to another. -/
example : wellTyped packet = true ∧ canonical World.initial packet ∧ depth packet ≤ 2 ∧ (⟨[], 0, 100⟩ : WBuf).Valid ∧
    (aencode World.initial busy 9 (.ref 0) shop 0 ⟨[], 0, 100⟩).2.2.2 = none ∧ (∀ q, Theirs (· = 2) shop q → q < shop.length) ∧
    Shows (adecode World.initial.suppliers busy 2 4 (shop ++ [newMsg .sample_SubPacket]) 0 ⟨[7, 0, 0, 0, 2, 0, 5, 0, 6, 0], [], 0⟩).1 packet (.ref 4) := by
  refine ⟨by decide +kernel, ?_, by decide +kernel, ⟨by decide, by decide⟩, by decide +kernel, shop_divided.theirs, by decide +kernel⟩
  show True ∧ (_ ∧ _ ∧ _) ∧ True
  exact ⟨trivial, ⟨by decide, by decide +kernel, trivial, trivial, trivial⟩, trivial⟩

/-- **C119 violated.** If the others have the list of a message, they can make the thread write other bytes, although they have no reference to the message. -/
theorem C119_list_violated : ∃ (h : Heap) (R : Nat → Prop) (o : Acts) (x : Nat) (b : WBuf), Limited R o ∧ ¬ Theirs R h x ∧
    (aencode World.initial o 9 (.ref x) h 0 b).2.2 ≠ (hencode World.initial 9 (.ref x) h b).2 := by
  refine ⟨shop, (· = 1), fun k g => if k = 0 then g.set 1 (.arr []) else g, 0, ⟨[], 0, 100⟩, fun k g => ?_, ?_, fun h => ?_⟩
  · have keep : ∀ q ob, Theirs (· = 1) g q ∨ g.length ≤ q → g[q]? = some ob → ∀ p, HVal.ref p ∈ ob.values → Theirs (· = 1) g p := by
      rintro q ob (⟨a, ha, hr⟩ | hq) ho p hp
      · exact ⟨a, ha, reach_of_value hr ho hp⟩
      · rw [List.getElem?_eq_none hq] at ho; cases ho
    dsimp only
    split
    · refine ⟨by simp, fun q _ hn => List.getElem?_set_ne ?_, fun q ob hq ho p hp => ?_⟩
      · rintro rfl; exact hn ⟨1, rfl, .here 1⟩
      · rw [List.getElem?_set] at ho
        split at ho
        · split at ho
          · cases ho; simp [HObj.values] at hp
          · cases ho
        · exact .inl (keep q ob hq ho p hp)
    · exact ⟨Nat.le_refl _, fun _ _ _ => rfl, fun q ob hq ho p hp => .inl (keep q ob hq ho p hp)⟩
  · rintro ⟨a, rfl, hr⟩
    cases hr with
    | step _ _ ob y h1 h2 h3 =>
      cases h1
      simp [HObj.values] at h2
      rcases h2 with rfl | rfl <;> cases h3
  · have := congrArg (fun r => r.1.data) h
    revert this
    decide +kernel

end FinProto
