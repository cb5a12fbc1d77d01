import Verif.Props.Objects
import Verif.Props.Encode
import Verif.Spec.NewMessage
/-
C105: a new message.
-/
namespace FinProto

/-! ### C105: getters and setters -/

/-- **C105.** The getters of a new message return zero or null. -/
theorem C105_blank (c : Cls) (p : Nat) (t : FTy) (ht : (javaTypes c)[p]? = some t) :
    getProp c p (freshFields c) = some (unset t) := by
  have hp : p < (layout c).length := by
    have h1 := (List.getElem?_eq_some_iff.mp ht).1
    rw [type_table] at h1
    simpa [wire] using h1
  rw [getProp_eq c p _ hp]
  simp only [javaTypes, List.getElem?_map, Option.map_eq_some_iff] at ht
  obtain ⟨f, hf, rfl⟩ := ht
  simp only [freshFields, List.getElem?_map, hf, Option.map_some]
  cases f.2 <;> rfl

private theorem typed_default (fl : List (String × FTy)) :
    fieldsHaveType (fl.map (·.2)) (fl.map fun f => f.2.default) = true := by
  induction fl with
  | nil => rfl
  | cons f fl ih =>
    simp only [List.map_cons, fieldsHaveType, ih, Bool.and_true]
    cases f.2 <;> simp [FTy.default, hasType]

/-- **C105.** A new message has the declared types. -/
theorem C105_typed (c : Cls) : wellTyped (fresh c) = true := by
  simp only [wellTyped, fresh, hasType, javaTypes, freshFields, typed_default, Bool.and_true]

/-- **C105.** New messages are equal exactly if their classes are the same. -/
theorem C105_equal (c d : Cls) : (fresh c).equals (fresh d) = true ↔ c = d := by
  constructor
  · intro h
    have := (C45_equals_same _ _ (C105_typed c) (C105_typed d)).mp h
    simp only [fresh, same] at this
    obtain ⟨gs, h, _⟩ := this
    exact ((Val.obj.injEq ..).mp h).1.symm
  · rintro rfl
    exact C42_refl _ (C105_typed c)

/-- **C105.** Every message can be made from a new one with setters, called in any order and any number of times, as long as the last call for each
property passes its value. -/
theorem C105_build (c : Cls) (fs : List Val) (hf : fieldsHaveType (javaTypes c) fs = true) (calls : List (Nat × Val))
    (hc : ∀ q v, (q, v) ∈ calls → q < (decl c).acc.length)
    (hl : ∀ p v z, fs[p]? = some v → lastSet p z calls = v) :
    calls.foldl (fun gs call => setProp c call.1 call.2 gs) (freshFields c) = fs := by
  have hlen : ∀ (calls : List (Nat × Val)) (gs : List Val), (∀ q v, (q, v) ∈ calls → q < (decl c).acc.length) →
      (calls.foldl (fun gs call => setProp c call.1 call.2 gs) gs).length = gs.length := by
    intro calls
    induction calls with
    | nil => intro gs _; rfl
    | cons qv calls ih =>
      intro gs h
      have hq : qv.1 < (layout c).length := by
        have h1 := h qv.1 qv.2 (by simp)
        have := congrArg List.length (acc_table c)
        simp only [List.length_map, List.length_range] at this
        omega
      rw [List.foldl_cons, ih _ (fun q v hm => h q v (by simp [hm])), setProp_eq c _ _ _ hq]
      simp
  have hw := fields_length c fs hf
  have hl0 : (freshFields c).length = (wire c).length := freshFields_length c
  apply List.ext_getElem?
  intro p
  by_cases hp : p < (layout c).length
  · have hp' : p < (wire c).length := by simpa [wire] using hp
    have hold : getProp c p (freshFields c) = some ((freshFields c)[p]'(by omega)) := by
      rw [getProp_eq c p _ hp]; exact List.getElem?_eq_getElem (by omega)
    have h1 := C51_history c p calls (freshFields c) _ (by simp [freshFields]) hc hold
    rw [getProp_eq c p _ hp] at h1
    rw [h1, List.getElem?_eq_getElem (by omega : p < fs.length)]
    congr 1
    exact hl p _ _ (List.getElem?_eq_getElem (by omega))
  · have hp' : (wire c).length ≤ p := by simp [wire]; omega
    rw [List.getElem?_eq_none (by rw [hlen calls _ hc]; omega), List.getElem?_eq_none (by omega)]

/-! ### C105: encoding -/

private theorem zero_bytes (e : Endian) (t : PTy) : Num.bytes e ⟨t, 0⟩ = List.replicate t.size 0 := by
  cases e <;> cases t <;> rfl

private theorem zero_count (k : Conv) (t : PTy) : countImage k t 0 = List.replicate t.size 0 := by
  unfold countImage
  cases k.order <;> cases t <;> rfl

private theorem empty_image (k : Conv) (t : WTy) : imageField k t t.java.default = emptyField k t := by
  cases t with
  | num t => exact zero_bytes _ _
  | len t => exact zero_bytes _ _
  | cksum t a => exact zero_bytes _ _
  | text n pad left =>
    show textImage n pad left [] = _
    simp only [textImage, emptyField, fixedField, List.isEmpty_nil, Bool.and_true]
    have h0 : utf8Enc [] = [] := rfl
    cases left <;> simp [h0]
  | vstr =>
    show vstrImage k [] = _
    have h0 : utf8Enc [] = [] := rfl
    simp only [vstrImage, h0, List.length_nil, List.append_nil, emptyField, zero_count]
  | list e => exact zero_count _ _
  | sub d => rfl
  | ext f g => rfl

private theorem empty_images (k : Conv) (ts : List WTy) : imageFields k ts (ts.map fun t => t.java.default) = emptyFields k ts := by
  induction ts with
  | nil => rfl
  | cons t ts ih => simp only [List.map_cons, imageFields, empty_image, ih, emptyFields, List.flatMap_cons]

private theorem freshFields_wire (c : Cls) : freshFields c = (wire c).map fun t => t.java.default := by
  have := congrArg (List.map FTy.default) (type_table c)
  rw [javaTypes, List.map_map, List.map_map] at this
  exact this

private theorem fresh_image (c : Cls) : image (fresh c) = emptyFields (conv c.mod) (wire c) := by
  rw [fresh, image, freshFields_wire, empty_images]

private theorem default_depth (fl : List (String × FTy)) : depthList (fl.map fun f => f.2.default) = 0 := by
  induction fl with
  | nil => rfl
  | cons f fl ih =>
    simp only [List.map_cons, depthList, ih]
    cases f.2 <;> rfl

private theorem fresh_depth (c : Cls) : depth (fresh c) = 1 := by
  simp only [fresh, depth, freshFields, default_depth]

private theorem fresh_complete (c : Cls) : complete (fresh c) = true ↔ c ≠ .sample_NestedPacket := by
  cases c <;> decide

/-- **C105.** A new message can be encoded at once, unless its class is `NestedPacket`; `NestedPacket` has mandatory parts and throws a
NullPointerException. -/
theorem C105_encodable (w : World) (n : Nat) (c : Cls) (b : WBuf) (hb : b.Valid)
    (hroom : b.data.length + (emptyFields (conv c.mod) (wire c)).length ≤ b.maxCap) :
    (encode w (n + 1) (fresh c) b).2.2 = if c = .sample_NestedPacket then some .nullPointer else none := by
  have hd := fresh_depth c
  have hi := fresh_image c
  by_cases hc : c = .sample_NestedPacket
  · rw [if_pos hc]
    exact (C30_null_pointer w (n + 1) _ b (C105_typed c) hb (by omega) (by rw [hi]; exact hroom)).mpr (by subst hc; decide)
  · rw [if_neg hc]
    exact (C30_success_iff w (n + 1) _ b (C105_typed c) hb (by omega)).mpr ⟨(fresh_complete c).mpr hc, by rw [hi]; exact hroom⟩

private theorem no_checksum (c : Cls) (h : ∀ t a, WTy.cksum t a ∉ wire c) : hasComputed c = false ∨ c = .risk_RcBinary := by
  cases hc : hasComputed c with
  | false => exact .inl rfl
  | true =>
    rcases (C22_frames c).mp hc with rfl | rfl | rfl | rfl
    · exact absurd (by decide) (h .i32 "CRC32")
    · exact absurd (by decide) (h .i32 "SSE_BIN")
    · exact absurd (by decide) (h .i32 "SZSE_BIN")
    · exact .inr rfl

private theorem default_frameless (fl : List (String × FTy)) : framelessList (fl.map fun f => f.2.default) = true := by
  induction fl with
  | nil => rfl
  | cons f fl ih =>
    simp only [List.map_cons, framelessList, ih, Bool.and_true]
    cases f.2 <;> rfl

/-- **C105.** The bytes of a new message without a checksum field: those of its unset fields.  The message stays as it is. -/
theorem C105_bytes (w : World) (n : Nat) (c : Cls) (b : WBuf) (hb : b.Valid) (hc : c ≠ .sample_NestedPacket)
    (hk : ∀ t a, WTy.cksum t a ∉ wire c) (hroom : b.data.length + (emptyFields (conv c.mod) (wire c)).length ≤ b.maxCap) :
    encode w (n + 1) (fresh c) b = (fresh c, { b with data := b.data ++ emptyFields (conv c.mod) (wire c) }, none) := by
  have hok : (encode w (n + 1) (fresh c) b).2.2 = none := by rw [C105_encodable w n c b hb hroom, if_neg hc]
  have hs : settle w.svc b.readable (fresh c) = fresh c := by
    rcases no_checksum c hk with h | rfl
    · exact settle_frameless _ _ _ (by simp [fresh, frameless, h, freshFields, default_frameless])
    · rfl
  obtain ⟨h1, h2, h3, h4⟩ := C22_encode_appends_image w (n + 1) _ b (C105_typed c) hb hok
  rw [hs] at h4
  rw [h4, fresh_image] at h1
  revert hok h1 h2 h3 h4
  generalize encode w (n + 1) (fresh c) b = r
  obtain ⟨v, ⟨d, rd, cap⟩, e⟩ := r
  rintro rfl rfl rfl rfl rfl
  rfl

/-- **C105.** The bytes of a new frame with a checksum field: those of its unset fields in front, and the checksum of everything readable in front if the
algorithm is registered, zero otherwise.  The message keeps the checksum. -/
theorem C105_frame (w : World) (n : Nat) (c : Cls) (b : WBuf) (hb : b.Valid) (ts : List WTy) (a : String)
    (hk : wire c = ts ++ [.cksum .i32 a]) (hroom : b.data.length + (emptyFields (conv c.mod) ts).length + 4 ≤ b.maxCap) :
    let pre := b.readable ++ emptyFields (conv c.mod) ts
    let ck := match w.svc a with | some s => s.calcOn pre | none => 0
    encode w (n + 1) (fresh c) b =
      (.obj c ((freshFields c).set ts.length (.num ⟨.i32, ck⟩)),
        { b with data := b.data ++ emptyFields (conv c.mod) ts ++ toBytes (conv c.mod).order 4 ck.toNat }, none) := by
  have hroom' : b.data.length + (emptyFields (conv c.mod) (wire c)).length ≤ b.maxCap := by
    rw [hk]
    simp only [emptyFields, List.flatMap_append, List.length_append, List.flatMap_cons, List.flatMap_nil, emptyField, List.length_replicate,
      List.append_nil, show PTy.i32.size = 4 from rfl] at hroom ⊢
    omega
  have hm : WTy.cksum .i32 a ∈ wire c := by rw [hk]; simp
  have hcomp : hasComputed c = true := by
    simp only [hasComputed, List.any_eq_true]
    exact ⟨_, hm, rfl⟩
  have hfr : c = .sample_RootPacket ∨ c = .sse_SseBinary ∨ c = .szse_SzseBinary := by
    rcases (C22_frames c).mp hcomp with h | h | h | h
    · exact .inl h
    · exact .inr (.inl h)
    · exact .inr (.inr h)
    · subst h
      have := congrArg List.getLast? hk
      rw [List.getLast?_concat] at this
      exact absurd this (by simp [wire, layout, Layout.risk_RcBinary])
  have hne : c ≠ .sample_NestedPacket := by rcases hfr with rfl | rfl | rfl <;> decide
  have hok : (encode w (n + 1) (fresh c) b).2.2 = none := by rw [C105_encodable w n c b hb hroom', if_neg hne]
  obtain ⟨h1, h2, h3, h4⟩ := C22_encode_appends_image w (n + 1) _ b (C105_typed c) hb hok
  have hts : ts = (wire c).dropLast := by rw [hk]; simp
  have ha : (wire c).getLast? = some (.cksum .i32 a) := by rw [hk]; simp
  intro pre ck
  have hs : settle w.svc b.readable (fresh c) = .obj c ((freshFields c).set ts.length (.num ⟨.i32, ck⟩)) := by
    have last : ∀ k, settleField w.svc k pre (.cksum .i32 a) (.num ⟨.i32, 0⟩) = .num ⟨.i32, ck⟩ := by
      intro k
      simp only [settleField, ck]
      cases w.svc a <;> rfl
    subst hts
    rcases hfr with rfl | rfl | rfl
    · obtain rfl : "CRC32" = a := by simpa [wire, layout, Layout.sample_RootPacket] using ha
      have e : pre = b.readable ++ [0, 0] ++ [0, 0, 0, 0] ++ [] := by
        simp only [pre, List.append_assoc, List.append_nil]; rfl
      simp only [settle, fresh, freshFields_wire, wire, layout, Layout.sample_RootPacket, List.map_cons, List.map_nil, settleFields, settleField, WTy.java, FTy.default,
        imageField, zero_bytes, List.length_nil, zero_count]
      have l := last ⟨.be, .i16, .i16⟩
      rw [e] at l
      simp only [settleField] at l
      exact congrArg (fun x => Val.obj .sample_RootPacket [.num ⟨.i16, 0⟩, .num ⟨.i32, 0⟩, .null, x]) l
    · obtain rfl : "SSE_BIN" = a := by simpa [wire, layout, Layout.sse_SseBinary] using ha
      have e : pre = b.readable ++ [0, 0, 0, 0] ++ [0, 0, 0, 0, 0, 0, 0, 0] ++ [0, 0, 0, 0] ++ [] := by
        simp only [pre, List.append_assoc, List.append_nil]; rfl
      simp only [settle, fresh, freshFields_wire, wire, layout, Layout.sse_SseBinary, List.map_cons, List.map_nil, settleFields, settleField, WTy.java, FTy.default,
        imageField, zero_bytes, List.length_nil, zero_count]
      have l := last ⟨.be, .i16, .i16⟩
      rw [e] at l
      simp only [settleField] at l
      exact congrArg (fun x => Val.obj .sse_SseBinary [.num ⟨.i32, 0⟩, .num ⟨.i64, 0⟩, .num ⟨.i32, 0⟩, .null, x]) l
    · obtain rfl : "SZSE_BIN" = a := by simpa [wire, layout, Layout.szse_SzseBinary] using ha
      have e : pre = b.readable ++ [0, 0, 0, 0] ++ [0, 0, 0, 0] ++ [] := by
        simp only [pre, List.append_assoc, List.append_nil]; rfl
      simp only [settle, fresh, freshFields_wire, wire, layout, Layout.szse_SzseBinary, List.map_cons, List.map_nil, settleFields, settleField, WTy.java, FTy.default,
        imageField, zero_bytes, List.length_nil, zero_count]
      have l := last ⟨.be, .i16, .i16⟩
      rw [e] at l
      simp only [settleField] at l
      exact congrArg (fun x => Val.obj .szse_SzseBinary [.num ⟨.i32, 0⟩, .num ⟨.i32, 0⟩, .null, x]) l
  have him : image (Val.obj c ((freshFields c).set ts.length (.num ⟨.i32, ck⟩))) = emptyFields (conv c.mod) ts ++ toBytes (conv c.mod).order 4 ck.toNat := by
    generalize ck = x
    subst hts
    rcases hfr with rfl | rfl | rfl <;> rfl
  rw [h4, hs, him] at h1
  rw [hs] at h4
  revert hok h1 h2 h3 h4
  generalize encode w (n + 1) (fresh c) b = r
  obtain ⟨v, ⟨d, rd, cap⟩, e⟩ := r
  rintro rfl h rfl rfl rfl
  simp only at h
  rw [h, List.append_assoc]

/-! ### Examples -/

/-- The processes of the examples: one where the SSE checksum is registered. -/
private def wReg : World := { World.initial with svc := fun n => if n = "SSE_BIN" then some sseBinService else Registry.initial n }

example := C105_blank .sse_SseBinary 1 (.prim .i64) rfl
example := C105_blank .sse_SseBinary 3 .codec rfl
example := C105_build .sample_SubPacket [.num ⟨.i32, 9⟩, .list [.num ⟨.i16, 4⟩]] (by decide +kernel)
  [(0, .num ⟨.i32, 3⟩), (1, .list [.num ⟨.i16, 4⟩]), (0, .num ⟨.i32, 9⟩)]
  (by
    intro q v h
    simp only [List.mem_cons, Prod.mk.injEq, List.not_mem_nil, or_false] at h
    have : (decl .sample_SubPacket).acc.length = 2 := by decide +kernel
    rcases h with ⟨rfl, -⟩ | ⟨rfl, -⟩ | ⟨rfl, -⟩ <;> omega)
  (by
    intro p v z h
    match p, h with
    | 0, h => cases h; rfl
    | 1, h => cases h; rfl)
example := C105_encodable World.initial 0 .sample_NestedPacket ⟨[9], 0, 100⟩ ⟨by decide, by decide⟩ (by decide +kernel)
example := C105_bytes World.initial 0 .risk_RcBinary ⟨[9], 0, 100⟩ ⟨by decide, by decide⟩ (by decide) (by simp [wire, layout, Layout.risk_RcBinary]) (by decide +kernel)
example := C105_bytes World.initial 0 .sse_Logon ⟨[9], 0, 1000⟩ ⟨by decide, by decide⟩ (by decide) (by simp [wire, layout, Layout.sse_Logon]) (by decide +kernel)
example := C105_frame wReg 0 .sse_SseBinary ⟨[9, 8], 1, 100⟩ ⟨by decide, by decide⟩ [.num .i32, .num .i64, .len .i32, .ext .sse_SseBinary 0] "SSE_BIN" rfl (by decide +kernel)

/-- A new SSE frame behind the byte 8: the checksum is 8. -/
example : (encode wReg 1 (fresh .sse_SseBinary) ⟨[9, 8], 1, 100⟩).2.1.data = [9, 8] ++ List.replicate 16 0 ++ [0, 0, 0, 8] := by decide +kernel

end FinProto
