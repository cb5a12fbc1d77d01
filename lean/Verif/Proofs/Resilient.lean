import Verif.Spec.Resilient
import Verif.Props.Integrity
import Verif.Props.Cut
/-
Lemmas for `Props/Resilient.lean`.
-/
namespace FinProto

theorem guardian_cls {c : Cls} {name : String} {s : Service} (h : guardian c = some (name, s)) :
    (c = .sse_SseBinary ∧ name = "SSE_BIN" ∧ s = sseBinService) ∨ (c = .szse_SzseBinary ∧ name = "SZSE_BIN" ∧ s = szseBinService)
      ∨ (c = .sample_RootPacket ∧ name = "CRC32" ∧ s = crc32Service) := by
  cases c <;> simp [guardian] at h ⊢ <;> exact ⟨h.1.symm, h.2.symm⟩

theorem sse_fields (fs : List Val) (hv : wellTyped (.obj .sse_SseBinary fs) = true) :
    ∃ ty seq len body ck, fs = [.num ty, .num seq, .num len, body, .num ck] := by
  have ht : fieldsHaveType (javaTypes .sse_SseBinary) fs = true := by simpa [wellTyped, hasType] using hv
  obtain ⟨x1, fs, rfl, t1, ht⟩ := typed_cons _ _ _ ht
  obtain ⟨x2, fs, rfl, t2, ht⟩ := typed_cons _ _ _ ht
  obtain ⟨x3, fs, rfl, t3, ht⟩ := typed_cons _ _ _ ht
  obtain ⟨x4, fs, rfl, t4, ht⟩ := typed_cons _ _ _ ht
  obtain ⟨x5, fs, rfl, t5, ht⟩ := typed_cons _ _ _ ht
  obtain rfl := typed_nil _ ht
  obtain ⟨ty, rfl, h1⟩ := num_of_prim _ _ t1
  obtain ⟨seq, rfl, h2⟩ := num_of_prim _ _ t2
  obtain ⟨len, rfl, h3⟩ := num_of_prim _ _ t3
  obtain ⟨ck, rfl, h5⟩ := num_of_prim _ _ t5
  exact ⟨_, _, _, _, _, rfl⟩

theorem szse_fields (fs : List Val) (hv : wellTyped (.obj .szse_SzseBinary fs) = true) :
    ∃ ty len body ck, fs = [.num ty, .num len, body, .num ck] := by
  have ht : fieldsHaveType (javaTypes .szse_SzseBinary) fs = true := by simpa [wellTyped, hasType] using hv
  obtain ⟨x1, fs, rfl, t1, ht⟩ := typed_cons _ _ _ ht
  obtain ⟨x2, fs, rfl, t2, ht⟩ := typed_cons _ _ _ ht
  obtain ⟨x3, fs, rfl, t3, ht⟩ := typed_cons _ _ _ ht
  obtain ⟨x4, fs, rfl, t4, ht⟩ := typed_cons _ _ _ ht
  obtain rfl := typed_nil _ ht
  obtain ⟨ty, rfl, h1⟩ := num_of_prim _ _ t1
  obtain ⟨len, rfl, h2⟩ := num_of_prim _ _ t2
  obtain ⟨ck, rfl, h4⟩ := num_of_prim _ _ t4
  exact ⟨_, _, _, _, rfl⟩

theorem root_fields (fs : List Val) (hv : wellTyped (.obj .sample_RootPacket fs) = true) :
    ∃ ty len body ck, fs = [.num ty, .num len, body, .num ck] := by
  have ht : fieldsHaveType (javaTypes .sample_RootPacket) fs = true := by simpa [wellTyped, hasType] using hv
  obtain ⟨x1, fs, rfl, t1, ht⟩ := typed_cons _ _ _ ht
  obtain ⟨x2, fs, rfl, t2, ht⟩ := typed_cons _ _ _ ht
  obtain ⟨x3, fs, rfl, t3, ht⟩ := typed_cons _ _ _ ht
  obtain ⟨x4, fs, rfl, t4, ht⟩ := typed_cons _ _ _ ht
  obtain rfl := typed_nil _ ht
  obtain ⟨ty, rfl, h1⟩ := num_of_prim _ _ t1
  obtain ⟨len, rfl, h2⟩ := num_of_prim _ _ t2
  obtain ⟨ck, rfl, h4⟩ := num_of_prim _ _ t4
  exact ⟨_, _, _, _, rfl⟩

/-- A frame that has arrived as it was sent is accepted. -/
theorem intact_accepted (ws wr : World) (n m : Nat) (c : Cls) (name : String) (s : Service) (hg : guardian c = some (name, s))
    (hs : ws.svc.getService name = some s) (x : Sending) (hx : x.Ok ws n c) (hl : legible wr (.obj c x.fields))
    (hm : depth (.obj c x.fields) ≤ m) : accepts s wr m c (x.bytes ws n c) = true := by
  obtain ⟨hv, hb, hrd, _, hok⟩ := hx
  obtain ⟨fs, b⟩ := x
  rcases guardian_cls hg with ⟨rfl, rfl, rfl⟩ | ⟨rfl, rfl, rfl⟩ | ⟨rfl, rfl, rfl⟩
  · obtain ⟨ty, seq, len, body, ck, rfl⟩ := sse_fields fs hv
    exact C75_genuine_sse ws wr n m b ty seq len ck body _ hv hb hok hs hrd hl hm
  · obtain ⟨ty, len, body, ck, rfl⟩ := szse_fields fs hv
    exact C75_genuine_szse ws wr n m b ty len ck body _ hv hb hok hs hrd hl hm
  · obtain ⟨ty, len, body, ck, rfl⟩ := root_fields fs hv
    exact C75_genuine_root ws wr n m b ty len ck body _ hv hb hok hs hrd hl hm

/-- A damaged frame is not. -/
theorem damaged_refused (ws wr : World) (n m : Nat) (c : Cls) (name : String) (s : Service) (hg : guardian c = some (name, s))
    (hs : ws.svc.getService name = some s) (x : Sending) (hx : x.Ok ws n c) (q : List Byte) (hlen : q.length = (x.bytes ws n c).length)
    (h31 : (x.bytes ws n c).length < 2 ^ 31) (hq : Slight c (x.bytes ws n c) q) : accepts s wr m c q = false := by
  obtain ⟨hv, hb, hrd, _, hok⟩ := hx
  obtain ⟨fs, b⟩ := x
  rcases guardian_cls hg with ⟨rfl, rfl, rfl⟩ | ⟨rfl, rfl, rfl⟩ | ⟨rfl, rfl, rfl⟩
  · obtain ⟨ty, seq, len, body, ck, rfl⟩ := sse_fields fs hv
    exact C75_corrupted_sse ws wr n m b ty seq len ck body hv hb hok hs hrd q hq
  · obtain ⟨ty, len, body, ck, rfl⟩ := szse_fields fs hv
    exact C75_corrupted_szse ws wr n m b ty len ck body hv hb hok hs hrd q (by rw [hlen]; exact h31) hq
  · obtain ⟨ty, len, body, ck, rfl⟩ := root_fields fs hv
    rcases hq with hq | ⟨hne, ⟨h1, h2⟩ | ⟨h1, h2⟩⟩
    · exact C75_corrupted_root ws wr n m b ty len ck body hv hb hok hs hrd q hq
    · exact C75_three_bits_root ws wr n m b ty len ck body hv hb hok hs hrd q (by rw [hlen]; exact h1) hlen.symm hne h2
    · exact C75_four_bits_root ws wr n m b ty len ck body hv hb hok hs hrd q (by rw [hlen]; exact h1) hlen.symm hne h2

/-- The bytes of a frame. -/
theorem sending_whole (ws : World) (n : Nat) (c : Cls) (F : Framing) (hF : framing c = some F) (x : Sending) (hx : x.Ok ws n c) :
    F.Whole (x.bytes ws n c) ∧ (x.bytes ws n c).length ≤ x.buf.maxCap := by
  obtain ⟨hv, hb, hrd, hcap, hok⟩ := hx
  obtain ⟨p, h1, h2⟩ := encode_whole ws n c F hF x.fields x.buf hv hb hcap hok
  obtain ⟨h3, h4⟩ := valid_after ws n _ x.buf hv hb hok
  have h5 := h3.2
  rw [h1, h4, List.length_append] at h5
  rw [Sending.bytes, h1, List.drop_left]
  exact ⟨h2, by omega⟩

/-- What an intact frame decodes to. -/
theorem intact_decodes (ws wr : World) (n m : Nat) (c : Cls) (x : Sending) (hx : x.Ok ws n c) (hl : legible wr (.obj c x.fields))
    (hm : depth (.obj c x.fields) ≤ m) :
    (.obj c (decode wr m c (freshFields c) ⟨x.bytes ws n c, [], 0⟩).1 : Val) = x.message ws n c := by
  obtain ⟨hv, hb, hrd, hcap, hok⟩ := hx
  obtain ⟨bytes, fs', h1, h2, h3⟩ := C23_general ws wr n m c x.fields x.buf hv hb hok hl hm
  have h4 := h3 [] [] []
  simp only [List.nil_append, List.append_nil, List.length_nil, Nat.zero_add] at h4
  rw [Sending.bytes, h1, List.drop_left, h4, Sending.message, h2]

theorem arrived_whole (ws : World) (n : Nat) (c : Cls) (F : Framing) (hF : framing c = some F) (max : Nat) (x : Sending) (hx : x.Ok ws n c)
    (hmax : x.buf.maxCap ≤ max) (q : List Byte) (hq : Arrives c F (x.bytes ws n c) q) : F.Whole q ∧ q.length ≤ max := by
  obtain ⟨⟨a1, a2⟩, a3⟩ := sending_whole ws n c F hF x hx
  rcases hq with rfl | ⟨d1, d2, _⟩
  · exact ⟨⟨a1, a2⟩, by omega⟩
  · refine ⟨⟨by rw [d1]; exact a1, ?_⟩, by rw [d1]; omega⟩
    rw [Framing.total, d2, d1]
    exact a2

theorem slight_ne (c : Cls) (p q : List Byte) (h : Slight c p q) : q ≠ p := by
  have hob : OneByteChanged p q → q ≠ p := by
    rintro ⟨a, x, y, b, rfl, rfl, hne⟩ he
    have := List.append_cancel_left he
    simp at this
    exact hne this.symm
  unfold Slight at h
  split at h
  · rcases h with ⟨a, e, e', b, h1, h2, h3, _, h5⟩ | ⟨h, _⟩
    · rintro rfl
      rw [h1, List.append_assoc, List.append_assoc] at h2
      have := List.append_cancel_left h2
      exact h5 (List.append_inj_left this h3)
    · exact h
  · exact hob h

/-- What the receiver does with one piece. -/
theorem sentPiece (ws wr : World) (n m : Nat) (c : Cls) (F : Framing) (hF : framing c = some F) (name : String) (s : Service)
    (hg : guardian c = some (name, s)) (hs : ws.svc.getService name = some s) (x : Sending) (hx : x.Ok ws n c)
    (hl : legible wr (.obj c x.fields)) (hm : depth (.obj c x.fields) ≤ m) (q : List Byte) (hq : Arrives c F (x.bytes ws n c) q) :
    (if accepts s wr m c q then some (.obj c (decode wr m c (freshFields c) ⟨q, [], 0⟩).1 : Val) else none)
      = if q = x.bytes ws n c then some (x.message ws n c) else none := by
  rcases hq with rfl | ⟨d1, d2, d3⟩
  · rw [if_pos (intact_accepted ws wr n m c name s hg hs x hx hl hm), if_pos rfl, intact_decodes ws wr n m c x hx hl hm]
  · have h31 : (x.bytes ws n c).length < 2 ^ 31 := by
      have := (sending_whole ws n c F hF x hx).2
      have := hx.2.2.2.1
      omega
    rw [if_neg (by rw [damaged_refused ws wr n m c name s hg hs x hx q d1 h31 d3]; simp), if_neg (slight_ne c _ _ d3)]

theorem sentPieces (ws wr : World) (n m : Nat) (c : Cls) (F : Framing) (hF : framing c = some F) (name : String) (s : Service)
    (hg : guardian c = some (name, s)) (hs : ws.svc.getService name = some s) (xs : List Sending) (arrived : List (List Byte))
    (h : List.Forall₂ (fun x q => x.Ok ws n c ∧ legible wr (.obj c x.fields) ∧ depth (.obj c x.fields) ≤ m ∧ Arrives c F (x.bytes ws n c) q)
      xs arrived) :
    (arrived.filterMap fun f => if accepts s wr m c f then some (.obj c (decode wr m c (freshFields c) ⟨f, [], 0⟩).1 : Val) else none)
      = undamaged ws n c xs arrived := by
  induction h with
  | nil => rfl
  | @cons x q xs qs h _ ih =>
    rw [undamaged, List.zip_cons_cons, List.filterMap_cons, List.filterMap_cons,
      sentPiece ws wr n m c F hF name s hg hs x h.1 h.2.1 h.2.2.1 q h.2.2.2, ih]
    rfl

end FinProto
