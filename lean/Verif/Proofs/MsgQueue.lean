import Verif.Spec.MsgQueue
import Verif.Spec.Fixed
import Verif.Proofs.NettyRead
import Verif.Props.Netty
import Verif.Props.Encode
/-
Helper lemmas about a buffer used as a queue of messages.
-/
namespace FinProto.MsgQueue
open Netty

theorem at_self (b : NBuf) : b.at b.rd = b := rfl

/-- `decode` from an alive buffer, in terms of `decode` as the other properties speak of it. -/
theorem decode_of (w : World) (m : Nat) (c : Cls) (fs : List Val) (b : NBuf) (hb : b.Valid) (ha : b.alive = true) :
    ∃ fs' k' e, Netty.decode w m c fs b = (fs', { b with rd := k' }, e.map .java)
      ∧ FinProto.decode w m c fs ⟨b.mem.take b.wr, b.mem.drop b.wr, b.rd⟩ = (fs', ⟨b.mem.take b.wr, b.mem.drop b.wr, k'⟩, e) :=
  decode_both ha hb.2.1 w m c fs b.rd

theorem readNum_beyond (b : RBuf) (e : Endian) (t : PTy) (h : b.data.length ≤ b.rd) : b.readNum e t = (b, .error .indexOutOfBounds) := by
  have : 0 < t.size := by cases t <;> decide
  exact if_neg (by omega)

theorem readFixedString_from (b : RBuf) (n : Nat) (pad : JChar) (left : Bool) :
    (∃ s, readFixedString b n pad left = ({ b with rd := b.rd + n }, .ok s)) ∨ readFixedString b n pad left = (b, .error .indexOutOfBounds) := by
  unfold readFixedString RBuf.readText
  by_cases h0 : n = 0
  · rw [if_pos h0, h0]
    cases left <;> exact .inl ⟨_, rfl⟩
  · rw [if_neg h0]
    by_cases h : b.rd + n ≤ (b.data ++ b.spare).length
    · rw [if_pos h]; cases left <;> exact .inl ⟨_, rfl⟩
    · rw [if_neg h]; exact .inr rfl

/-- From the writer index on, a class with a number in it cannot be read. -/
theorem readFields_beyond (w : World) (call : DecCall) (k : Conv) (ts : List WTy) : ∀ (done olds : List Val) (b : RBuf), hasNumber ts = true →
    olds.length = ts.length → b.data.length ≤ b.rd → (readFields w call k done ts olds b).2.2 = some .indexOutOfBounds := by
  induction ts with
  | nil => intro _ _ _ h; cases h
  | cons t ts ih =>
    intro done olds b hn hl hb
    cases olds with
    | nil => simp at hl
    | cons old olds =>
      have hl' : olds.length = ts.length := by simpa using hl
      unfold readFields
      cases t with
      | num p => unfold readField; dsimp only; rw [readNum_beyond b _ _ hb]
      | len p => unfold readField; dsimp only; rw [readNum_beyond b _ _ hb]
      | cksum p a => unfold readField; dsimp only; rw [readNum_beyond b _ _ hb]
      | vstr => unfold readField; dsimp only; rw [readDyn, readNum_beyond b _ _ hb]
      | list e => unfold readField; dsimp only; rw [readNum_beyond b _ _ hb]
      | text n pad left =>
        unfold readField
        dsimp only
        rcases readFixedString_from b n pad left with ⟨s, h⟩ | h
        · rw [h]
          exact ih _ olds _ hn hl' (by show b.data.length ≤ b.rd + n; omega)
        · rw [h]
      | sub c => cases hn
      | ext f key => cases hn

/-- Nothing but texts can be read as long as there is memory. -/
theorem readFields_texts (w : World) (call : DecCall) (k : Conv) (ts : List WTy) : ∀ (done olds : List Val) (b : RBuf) (s : Nat), onlyTexts ts = true →
    olds.length = ts.length → offset? ts ts.length = some s → b.rd + s ≤ b.data.length + b.spare.length →
    (readFields w call k done ts olds b).2 = ({ b with rd := b.rd + s }, none) := by
  induction ts with
  | nil =>
    intro done olds b s _ hl hs hb
    cases olds with
    | nil => cases hs; rfl
    | cons _ _ => cases hl
  | cons t ts ih =>
    intro done olds b s hn hl hs hb
    cases olds with
    | nil => cases hl
    | cons old olds =>
      have hl' : olds.length = ts.length := by simpa using hl
      cases t with
      | text n pad left =>
        have hn' : onlyTexts ts = true := hn
        rw [List.length_cons, offset?] at hs
        cases ho : offset? ts ts.length with
        | none => rw [ho] at hs; cases hs
        | some o =>
          rw [ho] at hs
          have hs : s = n + o := (Option.some.inj hs).symm
          subst hs
          unfold readFields readField
          dsimp only
          rcases readFixedString_from b n pad left with ⟨x, h⟩ | h
          · rw [h]
            dsimp only
            rw [ih _ olds { b with rd := b.rd + n } o hn' hl' ho (by show b.rd + n + o ≤ b.data.length + b.spare.length; omega)]
            show ((⟨b.data, b.spare, b.rd + n + o⟩ : RBuf), _) = (⟨b.data, b.spare, b.rd + (n + o)⟩, _)
            rw [Nat.add_assoc]
          · unfold readFixedString RBuf.readText at h
            by_cases h0 : n = 0
            · rw [if_pos h0] at h; cases left <;> cases congrArg Prod.snd h
            · rw [if_neg h0, if_pos (by rw [List.length_append]; omega)] at h
              cases left <;> cases congrArg Prod.snd h
      | _ => cases hn

/-- A message in the queue: `decode` finds it wherever its bytes are. -/
def Waits (w : World) (m : Nat) (c : Cls) (v : Val) : Prop := ∃ fs, v = .obj c fs ∧ ∀ before after spare : List Byte,
  decode w m c (freshFields c) ⟨before ++ image v ++ after, spare, before.length⟩ =
    (fs, ⟨before ++ image v ++ after, spare, before.length + (image v).length⟩, none)

structure Holds (w : World) (m : Nat) (c : Cls) (b : NBuf) (q : List Val) : Prop where
  valid : b.Valid
  alive : b.alive = true
  bytes : b.readable = (q.map image).flatten
  waits : ∀ v ∈ q, Waits w m c v

theorem split_data {b : NBuf} (hb : b.Valid) : ∃ before : List Byte, before.length = b.rd ∧ b.mem.take b.wr = before ++ b.readable := by
  refine ⟨(b.mem.take b.wr).take b.rd, ?_, (List.take_append_drop _ _).symm⟩
  rw [List.length_take, List.length_take]
  have := hb.1; have := hb.2.1; omega

theorem readable_length {b : NBuf} (hb : b.Valid) : b.readable.length = b.wr - b.rd := by
  unfold NBuf.readable
  rw [List.length_drop, List.length_take]
  have := hb.2.1; omega

theorem take_some {w : World} {m : Nat} {c : Cls} {b : NBuf} {v : Val} {q : List Val} (h : Holds w m c b (v :: q)) :
    (take w m c b).2 = .took v ∧ Holds w m c (take w m c b).1 q := by
  obtain ⟨fs, rfl, hd⟩ := h.waits v List.mem_cons_self
  obtain ⟨before, hl, hs⟩ := split_data h.valid
  have hby : b.readable = image (.obj c fs) ++ (q.map image).flatten := by rw [h.bytes]; simp
  obtain ⟨fs', k', e, h1, h2⟩ := decode_of w m c (freshFields c) b h.valid h.alive
  have hd' := hd before (q.map image).flatten (b.mem.drop b.wr)
  rw [hs, hby, ← List.append_assoc, ← hl, hd'] at h2
  obtain ⟨rfl, h3, rfl⟩ : fs = fs' ∧ before.length + (image (.obj c fs)).length = k' ∧ none = e := by
    simp only [Prod.mk.injEq, RBuf.mk.injEq, true_and] at h2
    exact h2
  rw [hl] at h3
  have ht : take w m c b = ({ b with rd := k' }, .took (.obj c fs)) := by unfold take; rw [h1]; rfl
  rw [ht]
  have hw : b.rd + (image (.obj c fs)).length ≤ b.wr := by
    have := readable_length h.valid
    rw [hby, List.length_append] at this
    have := h.valid.1
    omega
  refine ⟨rfl, ⟨by show k' ≤ b.wr; omega, h.valid.2⟩, h.alive, ?_, fun x hx => h.waits x (List.mem_cons_of_mem _ hx)⟩
  show (b.mem.take b.wr).drop k' = _
  rw [hs, hby, ← List.append_assoc, ← h3, ← hl, ← List.length_append, List.drop_left]

theorem decode_beyond (w : World) (m : Nat) (c : Cls) (hc : numbered c = true) (b : RBuf) (hb : b.data.length ≤ b.rd) :
    (decode w m c (freshFields c) b).2.2 ≠ none := by
  have plain : ∀ (m : Nat) (c : Cls), hasNumber (wire c) = true → (decode w m c (freshFields c) b).2.2 ≠ none := by
    intro m c hc
    cases m with
    | zero => unfold decode; simp
    | succ m =>
      rw [decode_eq w m c _ _ (freshFields_length c), readFields_beyond w _ _ _ [] _ _ hc (freshFields_length c) hb]
      simp
  cases hw : wire c with
  | nil => unfold numbered at hc; rw [hw] at hc; cases hc
  | cons t ts =>
    cases t with
    | sub d =>
      have hd : hasNumber (wire d) = true := by unfold numbered at hc; rw [hw] at hc; exact hc
      cases m with
      | zero => unfold decode; simp
      | succ m =>
        have hf : ∃ olds, freshFields c = .null :: olds := by rw [freshFields_eq, hw]; exact ⟨_, rfl⟩
        obtain ⟨olds, hf⟩ := hf
        rw [decode_eq w m c _ _ (freshFields_length c), hw, hf]
        unfold readFields readField
        have := plain m d hd
        rcases hr : decode w m d (freshFields d) b with ⟨fs', b', e⟩
        rw [hr] at this
        cases e with
        | none => exact absurd rfl this
        | some e => simp [hr]
    | _ =>
      refine plain m c ?_
      unfold numbered at hc
      rw [hw] at hc ⊢
      exact hc

theorem take_none {w : World} {m : Nat} {c : Cls} {b : NBuf} (hc : numbered c = true) (h : Holds w m c b []) :
    ∃ e, take w m c b = (b, .nothing e) := by
  have hz : b.rd = b.wr := by
    have := readable_length h.valid
    rw [h.bytes] at this
    have := h.valid.1
    simp at *
    omega
  obtain ⟨fs', k', e, h1, h2⟩ := decode_of w m c (freshFields c) b h.valid h.alive
  have he : e ≠ none := by
    have := decode_beyond w m c hc ⟨b.mem.take b.wr, b.mem.drop b.wr, b.rd⟩ (by show (b.mem.take b.wr).length ≤ b.rd; rw [List.length_take]; omega)
    rw [h2] at this
    exact this
  cases e with
  | none => exact absurd rfl he
  | some e =>
    refine ⟨.java e, ?_⟩
    unfold take
    rw [h1]
    rfl

theorem send_cases {grow : Grow} (hg : grow.Ok) (ws wr : World) (n m : Nat) (c : Cls) (fs : List Val) {b : NBuf} {q : List Val} (h : Holds wr m c b q)
    (hv : wellTyped (.obj c fs) = true) (hcan : canonical wr (.obj c fs)) (hm : depth (.obj c fs) ≤ m) :
    (∃ v', (send grow ws n (.obj c fs) b).2 = .sent v' ∧ blank v' = blank (.obj c fs) ∧ Holds wr m c (send grow ws n (.obj c fs) b).1 (q ++ [v']))
    ∨ ∃ e, (send grow ws n (.obj c fs) b).2 = .refused e ∧ Holds wr m c (send grow ws n (.obj c fs) b).1 q := by
  obtain ⟨h1, h2, h3, h4, h5, h6, h7⟩ := C90_bytes grow hg ws n (.obj c fs) b h.valid h.alive
  obtain ⟨before, hl, hs⟩ := split_data h.valid
  have hlen : (b.mem.take b.wr).length = b.wr := by rw [List.length_take]; have := h.valid.2.1; omega
  have hw : (⟨b.mem.take b.wr, b.rd, b.maxCap⟩ : WBuf).Valid := ⟨by rw [hlen]; exact h.valid.1, by rw [hlen]; exact Nat.le_trans h.valid.2.1 h.valid.2.2⟩
  rcases he : (encode ws n (.obj c fs) ⟨b.mem.take b.wr, b.rd, b.maxCap⟩).2.2 with _ | e
  · left
    obtain ⟨bytes, fs', g1, g2, g3⟩ := C23_round_trip ws wr n m c fs _ hv hw he hcan hm
    have g4 := (encode_ok ws n _ _ hv hw he).2.2
    have g5 : bytes = image (.obj c fs') := by
      have a : (encode ws n (.obj c fs) ⟨b.mem.take b.wr, b.rd, b.maxCap⟩).2.1.data
          = b.mem.take b.wr ++ image (encode ws n (.obj c fs) ⟨b.mem.take b.wr, b.rd, b.maxCap⟩).1 := by rw [g4]; rfl
      rw [g1, g2] at a
      exact List.append_cancel_left a
    subst g5
    rw [he] at h2
    have hsend : send grow ws n (.obj c fs) b = ((Netty.encode grow ws n (.obj c fs) b).2.1, .sent (Netty.encode grow ws n (.obj c fs) b).1) := by
      unfold send; dsimp only; rw [h2]; rfl
    rw [hsend]
    refine ⟨_, rfl, by rw [h1]; exact C37_only_computed_fields_change ws n _ _ hv hw he, h6, h7, ?_, ?_⟩
    · show ((Netty.encode grow ws n (.obj c fs) b).2.1.mem.take (Netty.encode grow ws n (.obj c fs) b).2.1.wr).drop
          (Netty.encode grow ws n (.obj c fs) b).2.1.rd = _
      have hrd : (encode ws n (.obj c fs) ⟨b.mem.take b.wr, b.rd, b.maxCap⟩).2.1.rd = b.rd := by rw [g4]; rfl
      rw [h3, h4, hrd, g1, h1, g2]
      show (b.mem.take b.wr ++ image (.obj c fs')).drop b.rd = _
      rw [hs, List.append_assoc, ← hl, List.drop_left, h.bytes]
      simp
    · intro x hx
      rcases List.mem_append.mp hx with hx | hx
      · exact h.waits x hx
      · rw [List.mem_singleton.mp hx, h1, g2]
        exact ⟨fs', rfl, g3⟩
  · right
    rw [he] at h2
    have hsend : send grow ws n (.obj c fs) b = ({ (Netty.encode grow ws n (.obj c fs) b).2.1 with wr := b.wr }, .refused (.java e)) := by
      unfold send; dsimp only; rw [h2]; rfl
    rw [hsend]
    obtain ⟨r1, r2⟩ := encode_sim hg ws n (.obj c fs) b ⟨h.valid, h.alive⟩
    have hrd : (Netty.encode grow ws n (.obj c fs) b).2.1.rd = b.rd := h4.trans (C22_prefix_untouched ws n _ _).2.1
    refine ⟨_, rfl, ⟨by rw [hrd]; exact h.valid.1, ?_, h6.2.2⟩, h7, ?_, h.waits⟩
    · exact Nat.le_trans r2.mono h6.2.1
    · show ((Netty.encode grow ws n (.obj c fs) b).2.1.mem.take b.wr).drop (Netty.encode grow ws n (.obj c fs) b).2.1.rd = _
      have hp := (C22_prefix_untouched ws n (.obj c fs) ⟨b.mem.take b.wr, b.rd, b.maxCap⟩).1
      rw [← h3] at hp
      have hp : b.mem.take b.wr <+: (Netty.encode grow ws n (.obj c fs) b).2.1.mem := hp.trans (List.take_prefix _ _)
      have hp := List.prefix_iff_eq_take.mp hp
      rw [hlen] at hp
      rw [← hp, hrd]
      exact h.bytes

theorem discard_valid {b : NBuf} (hb : b.Valid) (ha : b.alive = true) : b.discardReadBytes.1.Valid ∧ b.discardReadBytes.1.alive = true
    ∧ b.discardReadBytes.1.readable = b.readable ∧ b.discardReadBytes.1.rd = 0 ∧ b.discardReadBytes.1.wr = b.readable.length
    ∧ b.discardReadBytes.1.maxCap = b.maxCap ∧ b.discardReadBytes.2 = none := by
  have hr := readable_length hb
  obtain ⟨h1, h2, h3⟩ := hb
  unfold NBuf.discardReadBytes
  rw [ha]
  by_cases h0 : b.rd = 0
  · rw [if_pos h0]
    exact ⟨⟨h1, h2, h3⟩, ha, rfl, h0, by rw [hr]; show b.wr = _; omega, rfl, rfl⟩
  · rw [if_neg h0]
    by_cases he : b.rd = b.wr
    · rw [if_neg (by simpa using he), if_pos rfl]
      refine ⟨⟨Nat.le_refl _, Nat.zero_le _, h3⟩, rfl, ?_, rfl, by rw [hr]; show 0 = _; omega, rfl, rfl⟩
      have : b.readable = [] := List.eq_nil_of_length_eq_zero (by omega)
      rw [this]; rfl
    · rw [if_pos he, if_pos rfl]
      have hl : 0 + b.readable.length ≤ b.mem.length := by omega
      have hol := overwrite_length b.mem 0 b.readable hl
      refine ⟨⟨Nat.zero_le _, ?_, ?_⟩, rfl, ?_, rfl, hr.symm, rfl, rfl⟩
      · show b.wr - b.rd ≤ (overwrite b.mem 0 b.readable).length; omega
      · show (overwrite b.mem 0 b.readable).length ≤ b.maxCap; omega
      · show ((overwrite b.mem 0 b.readable).take (b.wr - b.rd)).drop 0 = b.readable
        have := take_overwrite b.mem 0 b.readable hl
        rw [List.drop_zero, ← hr]
        simpa using this

theorem discard_holds {w : World} {m : Nat} {c : Cls} {b : NBuf} {q : List Val} (h : Holds w m c b q) : Holds w m c b.discardReadBytes.1 q := by
  obtain ⟨h1, h2, h3, _⟩ := discard_valid h.valid h.alive
  exact ⟨h1, h2, h3.trans h.bytes, h.waits⟩

theorem run_fifo {grow : Grow} (hg : grow.Ok) (ws wr : World) (n m : Nat) (c : Cls) (hc : numbered c = true) (os : List Op) :
    ∀ (b : NBuf) (q : List Val), (∀ o ∈ os, Sendable wr m c o) → Holds wr m c b q →
    ∃ q', Fifo q os (run grow ws wr n m c b os).2 q' ∧ Holds wr m c (run grow ws wr n m c b os).1 q' := by
  induction os with
  | nil => intro b q _ h; exact ⟨q, .nil q, h⟩
  | cons o os ih =>
    intro b q hs h
    have hs' := fun o' ho' => hs o' (List.mem_cons_of_mem _ ho')
    cases o with
    | send v =>
      obtain ⟨⟨fs, rfl⟩, hv, hcan, hd⟩ := hs _ List.mem_cons_self
      rcases send_cases hg ws wr n m c fs h hv hcan hd with ⟨v', h1, h0, h2⟩ | ⟨e, h1, h2⟩
      · obtain ⟨q', f, g⟩ := ih _ _ hs' h2
        refine ⟨q', ?_, g⟩
        show Fifo q (_ :: _) ((send grow ws n (.obj c fs) b).2 :: _) q'
        rw [h1]; exact .sent h0 f
      · obtain ⟨q', f, g⟩ := ih _ _ hs' h2
        refine ⟨q', ?_, g⟩
        show Fifo q (_ :: _) ((send grow ws n (.obj c fs) b).2 :: _) q'
        rw [h1]; exact .refused f
    | take =>
      cases q with
      | nil =>
        obtain ⟨e, h1⟩ := take_none hc h
        have h2 : Holds wr m c (take wr m c b).1 [] := by rw [h1]; exact h
        obtain ⟨q', f, g⟩ := ih _ _ hs' h2
        refine ⟨q', ?_, g⟩
        show Fifo [] (_ :: _) ((take wr m c b).2 :: _) q'
        rw [congrArg Prod.snd h1]; exact .nothing f
      | cons v q =>
        obtain ⟨h1, h2⟩ := take_some h
        obtain ⟨q', f, g⟩ := ih _ _ hs' h2
        refine ⟨q', ?_, g⟩
        show Fifo (v :: q) (_ :: _) ((take wr m c b).2 :: _) q'
        rw [h1]; exact .took f
    | discard =>
      obtain ⟨q', f, g⟩ := ih _ _ hs' (discard_holds h)
      exact ⟨q', .discarded f, g⟩

end FinProto.MsgQueue
