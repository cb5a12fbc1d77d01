import Verif.Spec.Cut
import Verif.Props.Frames
import Verif.Props.RoundTrip
/-
Lemmas for `Props/Cut.lean`.
-/
namespace FinProto

/-! ### Cutting -/

theorem cut_short (F : Framing) (max : Nat) (A : List Byte) (h : ¬ F.lenAt + 4 ≤ A.length) : cut F max A = ⟨[], A, false⟩ := by
  rw [cut, dif_neg h]

theorem cut_refuse (F : Framing) (max : Nat) (A : List Byte) (h : F.lenAt + 4 ≤ A.length) (hm : max < F.total A) :
    cut F max A = ⟨[], A, true⟩ := by
  rw [cut, dif_pos h, if_pos hm]

theorem cut_wait (F : Framing) (max : Nat) (A : List Byte) (h : F.lenAt + 4 ≤ A.length) (hm : ¬ max < F.total A)
    (hw : ¬ F.total A ≤ A.length) : cut F max A = ⟨[], A, false⟩ := by
  rw [cut, dif_pos h, if_neg hm, if_neg hw]

theorem cut_take (F : Framing) (max : Nat) (A : List Byte) (h : F.lenAt + 4 ≤ A.length) (hm : ¬ max < F.total A)
    (hw : F.total A ≤ A.length) :
    cut F max A = ⟨A.take (F.total A) :: (cut F max (A.drop (F.total A))).frames, (cut F max (A.drop (F.total A))).pending,
      (cut F max (A.drop (F.total A))).gaveUp⟩ := by
  rw [cut, dif_pos h, if_neg hm, if_pos hw]

theorem total_append (F : Framing) (A B : List Byte) (h : F.lenAt + 4 ≤ A.length) : F.total (A ++ B) = F.total A := by
  unfold Framing.total
  rw [List.drop_append_of_le_length (by omega), List.take_append_of_le_length (by rw [List.length_drop]; omega)]

theorem total_pos (F : Framing) (A : List Byte) : 0 < F.total A := by unfold Framing.total; omega

theorem cut_append (F : Framing) (max : Nat) (k : Nat) : ∀ A B : List Byte, A.length ≤ k →
    cut F max (A ++ B) =
      if (cut F max A).gaveUp then ⟨(cut F max A).frames, (cut F max A).pending ++ B, true⟩
      else ⟨(cut F max A).frames ++ (cut F max ((cut F max A).pending ++ B)).frames,
        (cut F max ((cut F max A).pending ++ B)).pending, (cut F max ((cut F max A).pending ++ B)).gaveUp⟩ := by
  induction k with
  | zero =>
    intro A B hA
    rw [cut_short F max A (by omega)]
    simp
  | succ k ih =>
    intro A B hA
    by_cases h : F.lenAt + 4 ≤ A.length
    · have ht := total_append F A B h
      have h' : F.lenAt + 4 ≤ (A ++ B).length := by rw [List.length_append]; omega
      by_cases hm : max < F.total A
      · rw [cut_refuse F max A h hm, cut_refuse F max (A ++ B) h' (by rw [ht]; exact hm)]
        simp
      · by_cases hw : F.total A ≤ A.length
        · have hp := total_pos F A
          rw [cut_take F max A h hm hw, cut_take F max (A ++ B) h' (by rw [ht]; exact hm) (by rw [ht, List.length_append]; omega), ht,
            List.drop_append_of_le_length hw, List.take_append_of_le_length hw,
            ih (A.drop (F.total A)) B (by rw [List.length_drop]; omega)]
          dsimp only
          split
          · rfl
          · simp
        · rw [cut_wait F max A h hm hw]
          simp
    · rw [cut_short F max A h]
      simp

theorem receive_cut (F : Framing) (max : Nat) (A B : List Byte) : Cutter.receive F max (cut F max A) B = cut F max (A ++ B) := by
  rw [cut_append F max A.length A B (Nat.le_refl _)]
  unfold Cutter.receive
  by_cases hg : (cut F max A).gaveUp = true
  · rw [if_pos hg, if_pos hg, ← hg]
  · rw [if_neg hg, if_neg hg]

theorem receiveChunks_cut (F : Framing) (max : Nat) (chunks : List (List Byte)) :
    Cutter.receiveChunks F max chunks = cut F max chunks.flatten := by
  have key : ∀ (chunks : List (List Byte)) (A : List Byte),
      chunks.foldl (Cutter.receive F max) (cut F max A) = cut F max (A ++ chunks.flatten) := by
    intro chunks
    induction chunks with
    | nil => intro A; simp
    | cons B chunks ih =>
      intro A
      rw [List.foldl_cons, receive_cut, ih]
      simp
  have h0 : (⟨[], [], false⟩ : Cutter) = cut F max [] := (cut_short F max [] (by simp)).symm
  rw [Cutter.receiveChunks, h0, key]
  rfl

theorem cut_whole (F : Framing) (max : Nat) (p rest : List Byte) (hp : F.Whole p) (hm : p.length ≤ max) :
    cut F max (p ++ rest) = ⟨p :: (cut F max rest).frames, (cut F max rest).pending, (cut F max rest).gaveUp⟩ := by
  have ht := (total_append F p rest hp.1).trans hp.2
  rw [cut_take F max _ (by rw [List.length_append]; have := hp.1; omega) (by rw [ht]; omega) (by rw [ht, List.length_append]; omega), ht,
    List.take_left, List.drop_left]

theorem cut_parts (F : Framing) (max : Nat) (rest : List Byte) (parts : List (List Byte))
    (h : ∀ p ∈ parts, F.Whole p ∧ p.length ≤ max) :
    cut F max (parts.flatten ++ rest) = ⟨parts ++ (cut F max rest).frames, (cut F max rest).pending, (cut F max rest).gaveUp⟩ := by
  induction parts with
  | nil => rfl
  | cons p parts ih =>
    rw [List.flatten_cons, List.append_assoc, cut_whole F max p _ (h p (by simp)).1 (h p (by simp)).2,
      ih (fun q hq => h q (by simp [hq]))]
    rfl

/-- A part of a frame is kept. -/
theorem cut_part (F : Framing) (max : Nat) (q more : List Byte) (hp : F.Whole (q ++ more)) (hm : (q ++ more).length ≤ max) (hne : more ≠ []) :
    cut F max q = ⟨[], q, false⟩ := by
  by_cases h : F.lenAt + 4 ≤ q.length
  · have ht := (total_append F q more h).symm.trans hp.2
    have := List.length_pos_iff.mpr hne
    rw [List.length_append] at hm ht
    exact cut_wait F max q h (by omega) (by omega)
  · exact cut_short F max q h

/-- Any beginning of a stream of frames. -/
theorem cut_prefix (F : Framing) (max : Nat) (parts : List (List Byte)) : ∀ (X Y : List Byte),
    (∀ p ∈ parts, F.Whole p ∧ p.length ≤ max) → parts.flatten = X ++ Y →
    ∃ k rest, k ≤ parts.length ∧ cut F max X = ⟨parts.take k, rest, false⟩ ∧ X = (parts.take k).flatten ++ rest
      ∧ ∀ p, parts[k]? = some p → rest.length < p.length := by
  induction parts with
  | nil =>
    intro X Y _ he
    obtain ⟨rfl, rfl⟩ : X = [] ∧ Y = [] := by simpa using he
    exact ⟨0, [], by simp, cut_short F max [] (by simp), by simp, by simp⟩
  | cons p parts ih =>
    intro X Y h he
    rw [List.flatten_cons] at he
    rcases List.append_eq_append_iff.mp he with ⟨Z, rfl, h2⟩ | ⟨Z, rfl, h2⟩
    · obtain ⟨k, rest, h3, h4, h5, h6⟩ := ih Z Y (fun q hq => h q (by simp [hq])) h2
      refine ⟨k + 1, rest, by simpa using h3, ?_, ?_, by simpa using h6⟩
      · rw [cut_whole F max p _ (h p (by simp)).1 (h p (by simp)).2, h4]; rfl
      · rw [List.take_succ_cons, List.flatten_cons, List.append_assoc, ← h5]
    · by_cases hZ : Z = []
      · subst hZ
        rw [List.append_nil] at h ⊢
        obtain ⟨k, rest, h3, h4, h5, h6⟩ := ih [] Y (fun q hq => h q (by simp [hq])) (by simpa using h2.symm)
        refine ⟨k + 1, rest, by simpa using h3, ?_, ?_, by simpa using h6⟩
        · have := cut_whole F max X [] (h X (by simp)).1 (h X (by simp)).2
          rw [List.append_nil] at this
          rw [this, h4]; rfl
        · rw [List.take_succ_cons, List.flatten_cons, List.append_assoc, ← h5, List.append_nil]
      · refine ⟨0, X, by simp, ?_, by simp, ?_⟩
        · exact cut_part F max X Z (h _ (by simp)).1 (h _ (by simp)).2 hZ
        · intro q hq
          have := List.length_pos_iff.mpr hZ
          simp only [List.getElem?_cons_zero, Option.some.injEq] at hq
          subst hq
          rw [List.length_append]; omega

/-! ### The bytes of an encoded frame -/

theorem num_of_prim (p : PTy) (v : Val) (h : hasType (.prim p) v = true) : ∃ x : Num, v = .num x ∧ x.ty = p := by
  cases v <;> simp [hasType] at h
  exact ⟨_, rfl, h⟩

theorem typed_cons (t : FTy) (ts : List FTy) (fs : List Val) (h : fieldsHaveType (t :: ts) fs = true) :
    ∃ v vs, fs = v :: vs ∧ hasType t v = true ∧ fieldsHaveType ts vs = true := by
  cases fs with
  | nil => simp [fieldsHaveType] at h
  | cons v vs =>
    rw [fieldsHaveType, Bool.and_eq_true] at h
    exact ⟨v, vs, rfl, h⟩

theorem typed_nil (fs : List Val) (h : fieldsHaveType [] fs = true) : fs = [] := by
  cases fs with
  | nil => rfl
  | cons v vs => simp [fieldsHaveType] at h

/-- Header, length, body, trailer. -/
theorem whole_of (F : Framing) (H B T : List Byte) (hH : H.length = F.lenAt) (hT : T.length = F.trailer) (hB : B.length < 2 ^ 32) :
    F.Whole (H ++ toBytes F.order 4 B.length ++ B ++ T) := by
  have h1 : ((H ++ toBytes F.order 4 B.length ++ B ++ T).drop F.lenAt).take 4 = toBytes F.order 4 B.length := by
    rw [List.append_assoc, List.append_assoc, ← hH, List.drop_left, List.take_append_of_le_length (by simp)]
    exact List.take_of_length_le (by simp)
  constructor
  · simp only [List.length_append, toBytes_length]; omega
  · rw [Framing.total, h1, ofBytes_toBytes, Nat.mod_eq_of_lt (by simpa using hB)]
    simp only [List.length_append, toBytes_length]
    omega

theorem bytes_len (e : Endian) (x : Num) (p : PTy) (h : x.ty = p) : (x.bytes e).length = p.size := by
  rw [Num.bytes, toBytes_length, h]

theorem encode_whole (w : World) (n : Nat) (c : Cls) (F : Framing) (hF : framing c = some F) (fs : List Val) (b : WBuf)
    (hv : wellTyped (.obj c fs) = true) (hb : b.Valid) (hcap : b.maxCap < 2 ^ 31) (hok : (encode w n (.obj c fs) b).2.2 = none) :
    ∃ p, (encode w n (.obj c fs) b).2.1.data = b.data ++ p ∧ F.Whole p := by
  obtain ⟨_, _, he⟩ := encode_ok w n _ b hv hb hok
  have ht : fieldsHaveType (javaTypes c) fs = true := by simpa [wellTyped, hasType] using hv
  have hvalid : (encode w n (.obj c fs) b).2.1.data.length < 2 ^ 31 := by
    rcases encode_cases w n _ b hv hb.1 hb.2 with ⟨_, _, hfit, h⟩ | ⟨_, _, _, h⟩ | ⟨_, h | h⟩
    · rw [h]; simp only [WBuf.app, List.length_append, image_settle_length w.svc b.readable _ hv]; omega
    · rw [hok] at h; cases h
    · rw [hok] at h; cases h
    · obtain ⟨x, hx⟩ := h.isSome; rw [hok] at hx; cases hx
  have key : c = .sse_SseBinary ∨ c = .szse_SzseBinary ∨ c = .sample_RootPacket ∨ c = .risk_RcBinary := by
    cases c <;> simp [framing] at hF ⊢
  rcases key with rfl | rfl | rfl | rfl <;> simp only [framing, Option.some.injEq] at hF <;> subst hF
  · obtain ⟨x1, fs, rfl, t1, ht⟩ := typed_cons _ _ _ ht
    obtain ⟨x2, fs, rfl, t2, ht⟩ := typed_cons _ _ _ ht
    obtain ⟨x3, fs, rfl, t3, ht⟩ := typed_cons _ _ _ ht
    obtain ⟨x4, fs, rfl, t4, ht⟩ := typed_cons _ _ _ ht
    obtain ⟨x5, fs, rfl, t5, ht⟩ := typed_cons _ _ _ ht
    obtain rfl := typed_nil _ ht
    obtain ⟨ty, rfl, h1⟩ := num_of_prim _ _ t1
    obtain ⟨seq, rfl, h2⟩ := num_of_prim _ _ t2
    obtain ⟨len, rfl, h3⟩ := num_of_prim _ _ t3
    obtain ⟨ck, rfl, h5⟩ := num_of_prim _ _ t5
    obtain ⟨body', bytes, ck', g1, _, _, _⟩ := C33_sse w n b ty seq len ck x4 hv hb hok
    have hs := settle_wellTyped w.svc b.readable _ hv
    rw [he] at g1
    have e1 := congrArg Prod.fst g1
    dsimp only at e1
    rw [e1] at hs
    have hck : ck'.ty = .i32 := by
      simp [wellTyped, hasType, fieldsHaveType, javaTypes, decl, Sse.SseBinary.decl, Sse.SseBinary.fields] at hs
      exact hs.2.2.2
    rw [he, g1] at hvalid
    rw [he, g1]
    refine ⟨ty.bytes .be ++ seq.bytes .be ++ toBytes .be 4 bytes.length ++ bytes ++ ck'.bytes .be, by simp only [List.append_assoc], ?_⟩
    refine whole_of ⟨12, .be, 4⟩ (ty.bytes .be ++ seq.bytes .be) bytes (ck'.bytes .be) ?_ ?_ ?_
    · rw [List.length_append, bytes_len _ _ _ h1, bytes_len _ _ _ h2]; rfl
    · rw [bytes_len _ _ _ hck]; rfl
    · simp only [List.length_append] at hvalid; omega
  · obtain ⟨x1, fs, rfl, t1, ht⟩ := typed_cons _ _ _ ht
    obtain ⟨x2, fs, rfl, t2, ht⟩ := typed_cons _ _ _ ht
    obtain ⟨x3, fs, rfl, t3, ht⟩ := typed_cons _ _ _ ht
    obtain ⟨x4, fs, rfl, t4, ht⟩ := typed_cons _ _ _ ht
    obtain rfl := typed_nil _ ht
    obtain ⟨ty, rfl, h1⟩ := num_of_prim _ _ t1
    obtain ⟨len, rfl, h2⟩ := num_of_prim _ _ t2
    obtain ⟨ck, rfl, h4⟩ := num_of_prim _ _ t4
    obtain ⟨body', bytes, ck', g1, _, _, _⟩ := C33_szse w n b ty len ck x3 hv hb hok
    have hs := settle_wellTyped w.svc b.readable _ hv
    rw [he] at g1
    have e1 := congrArg Prod.fst g1
    dsimp only at e1
    rw [e1] at hs
    have hck : ck'.ty = .i32 := by
      simp [wellTyped, hasType, fieldsHaveType, javaTypes, decl, Szse.SzseBinary.decl, Szse.SzseBinary.fields] at hs
      exact hs.2.2
    rw [he, g1] at hvalid
    rw [he, g1]
    refine ⟨ty.bytes .be ++ toBytes .be 4 bytes.length ++ bytes ++ ck'.bytes .be, by simp only [List.append_assoc], ?_⟩
    refine whole_of ⟨4, .be, 4⟩ (ty.bytes .be) bytes (ck'.bytes .be) ?_ ?_ ?_
    · rw [bytes_len _ _ _ h1]; rfl
    · rw [bytes_len _ _ _ hck]; rfl
    · simp only [List.length_append] at hvalid; omega
  · obtain ⟨x1, fs, rfl, t1, ht⟩ := typed_cons _ _ _ ht
    obtain ⟨x2, fs, rfl, t2, ht⟩ := typed_cons _ _ _ ht
    obtain ⟨x3, fs, rfl, t3, ht⟩ := typed_cons _ _ _ ht
    obtain ⟨x4, fs, rfl, t4, ht⟩ := typed_cons _ _ _ ht
    obtain rfl := typed_nil _ ht
    obtain ⟨ty, rfl, h1⟩ := num_of_prim _ _ t1
    obtain ⟨len, rfl, h2⟩ := num_of_prim _ _ t2
    obtain ⟨ck, rfl, h4⟩ := num_of_prim _ _ t4
    obtain ⟨body', bytes, ck', g1, _, _, _⟩ := C33_root w n b ty len ck x3 hv hb hok
    have hs := settle_wellTyped w.svc b.readable _ hv
    rw [he] at g1
    have e1 := congrArg Prod.fst g1
    dsimp only at e1
    rw [e1] at hs
    have hck : ck'.ty = .i32 := by
      simp [wellTyped, hasType, fieldsHaveType, javaTypes, decl, Sample.RootPacket.decl, Sample.RootPacket.fields] at hs
      exact hs.2.2
    rw [he, g1] at hvalid
    rw [he, g1]
    refine ⟨ty.bytes .le ++ toBytes .le 4 bytes.length ++ bytes ++ ck'.bytes .le, by simp only [List.append_assoc], ?_⟩
    refine whole_of ⟨2, .le, 4⟩ (ty.bytes .le) bytes (ck'.bytes .le) ?_ ?_ ?_
    · rw [bytes_len _ _ _ h1]; rfl
    · rw [bytes_len _ _ _ hck]; rfl
    · simp only [List.length_append] at hvalid; omega
  · obtain ⟨x1, fs, rfl, t1, ht⟩ := typed_cons _ _ _ ht
    obtain ⟨x2, fs, rfl, t2, ht⟩ := typed_cons _ _ _ ht
    obtain ⟨x3, fs, rfl, t3, ht⟩ := typed_cons _ _ _ ht
    obtain ⟨x4, fs, rfl, t4, ht⟩ := typed_cons _ _ _ ht
    obtain rfl := typed_nil _ ht
    obtain ⟨ty, rfl, h1⟩ := num_of_prim _ _ t1
    obtain ⟨ver, rfl, h2⟩ := num_of_prim _ _ t2
    obtain ⟨len, rfl, h3⟩ := num_of_prim _ _ t3
    obtain ⟨body', bytes, g1, _, _, _⟩ := C33_rc w n b ty ver len x4 hv hb hok
    rw [g1] at hvalid
    rw [g1]
    refine ⟨ty.bytes .be ++ ver.bytes .be ++ toBytes .be 4 bytes.length ++ bytes ++ [],
      by simp only [List.append_assoc, List.append_nil], ?_⟩
    refine whole_of ⟨8, .be, 0⟩ (ty.bytes .be ++ ver.bytes .be) bytes [] ?_ rfl ?_
    · rw [List.length_append, bytes_len _ _ _ h1, bytes_len _ _ _ h2]; rfl
    · simp only [List.length_append] at hvalid; omega

theorem valid_after (w : World) (n : Nat) (v : Val) (b : WBuf) (hv : wellTyped v = true) (hb : b.Valid) (hok : (encode w n v b).2.2 = none) :
    (encode w n v b).2.1.Valid ∧ (encode w n v b).2.1.maxCap = b.maxCap := by
  rcases encode_cases w n _ b hv hb.1 hb.2 with ⟨_, _, hfit, h⟩ | ⟨_, _, _, h⟩ | ⟨_, h | h⟩
  · have hl := image_settle_length w.svc b.readable _ hv
    rw [h]
    refine ⟨⟨?_, ?_⟩, rfl⟩
    · have := hb.1; simp [WBuf.app]; omega
    · simp only [WBuf.app, List.length_append, hl]; exact hfit
  · rw [hok] at h; cases h
  · rw [hok] at h; cases h
  · obtain ⟨x, hx⟩ := h.isSome; rw [hok] at hx; cases hx

theorem sent_parts (ws wr : World) (n m : Nat) (c : Cls) (F : Framing) (hF : framing c = some F) (vs : List Val) (b : WBuf)
    (hcls : ∀ v ∈ vs, v.cls? = some c) (hv : ∀ v ∈ vs, wellTyped v = true) (hb : b.Valid) (hcap : b.maxCap < 2 ^ 31)
    (hok : (sendAll ws n vs b).2.2 = none) :
    ∃ parts : List (List Byte), parts.length = vs.length ∧ (sendAll ws n vs b).2.1.data = b.data ++ parts.flatten
      ∧ (∀ p ∈ parts, F.Whole p ∧ p.length ≤ b.maxCap)
      ∧ ∀ (i : Nat) (v : Val) (p : List Byte), vs[i]? = some v → parts[i]? = some p → canonical wr v → depth v ≤ m →
          ∃ fs', (sendAll ws n vs b).1[i]? = some (.obj c fs')
            ∧ decode wr m c (freshFields c) ⟨p, [], 0⟩ = (fs', ⟨p, [], p.length⟩, none) := by
  induction vs generalizing b with
  | nil => exact ⟨[], rfl, by simp [sendAll], by simp, by simp⟩
  | cons v vs ih =>
    have hv1 := hv v (by simp)
    obtain ⟨c', fs, rfl, _⟩ := wellTyped_obj v hv1
    obtain rfl : c' = c := by simpa [Val.cls?] using hcls _ (List.mem_cons_self ..)
    have hok1 : (encode ws n (.obj c' fs) b).2.2 = none := by
      revert hok
      simp only [sendAll]
      rcases encode ws n (.obj c' fs) b with ⟨v', b', _ | e⟩ <;> simp
    obtain ⟨hb', hcap'⟩ := valid_after ws n _ b hv1 hb hok1
    obtain ⟨X, h1, h2⟩ := encode_whole ws n c' F hF fs b hv1 hb hcap hok1
    have hsend : sendAll ws n (.obj c' fs :: vs) b =
        ((encode ws n (.obj c' fs) b).1 :: (sendAll ws n vs (encode ws n (.obj c' fs) b).2.1).1,
          (sendAll ws n vs (encode ws n (.obj c' fs) b).2.1).2) := by
      simp only [sendAll]
      revert hok1
      rcases encode ws n (.obj c' fs) b with ⟨v', b', _ | e⟩ <;> simp
    rw [hsend] at hok ⊢
    obtain ⟨parts, g1, g2, g3, g4⟩ := ih (encode ws n (.obj c' fs) b).2.1 (fun x hx => hcls x (by simp [hx]))
      (fun x hx => hv x (by simp [hx])) hb' (by omega) hok
    refine ⟨X :: parts, by simp [g1], by rw [g2, h1, List.flatten_cons, List.append_assoc], ?_, ?_⟩
    · intro p hp
      rcases List.mem_cons.mp hp with rfl | hp
      · refine ⟨h2, ?_⟩
        have := hb'.2
        rw [h1, List.length_append] at this
        omega
      · rw [← hcap']; exact g3 p hp
    · intro i v p hvi hpi hcan hd
      cases i with
      | zero =>
        simp only [List.getElem?_cons_zero, Option.some.injEq] at hvi hpi
        subst hvi; subst hpi
        obtain ⟨X', fs', k1, k2, k3⟩ := C23_round_trip ws wr n m c' fs b hv1 hb hok1 hcan hd
        obtain rfl : X' = X := List.append_cancel_left (k1.symm.trans h1)
        refine ⟨fs', by rw [List.getElem?_cons_zero, k2], ?_⟩
        simpa using k3 [] [] []
      | succ i =>
        simp only [List.getElem?_cons_succ] at hvi hpi ⊢
        exact g4 i v p hvi hpi hcan hd

end FinProto
