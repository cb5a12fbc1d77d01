import Verif.Proofs.EncodeForm
import Verif.Proofs.EncodeFail
import Verif.Spec.Retry
import Verif.Proofs.Decode
/-
Helper lemmas: `encode`, successful or not, changes only computed fields; and its effect does not depend on them.
-/
namespace FinProto

/-- Whatever happens, the object keeps its class, its types and its content. -/
def CallKeeps (svc : Registry) (call : EncCall) : Prop :=
  (∀ b, (call .null b).1 = .null) ∧
  ∀ c fs b, fieldsHaveType (javaTypes c) fs = true →
    ∃ fs', (call (.obj c fs) b).1 = .obj c fs' ∧ fieldsHaveType (javaTypes c) fs' = true
      ∧ contentFields svc (wire c) fs' = contentFields svc (wire c) fs

theorem encElem_keeps (svc : Registry) (call : EncCall) (hc : CallKeeps svc call) (k : Conv) (e : EWTy) (v : Val) (b : WBuf)
    (ht : elemHasType e.java v = true) :
    elemHasType e.java (encElem call (encElOf k e) v b).1 = true
      ∧ contentElem svc (encElem call (encElOf k e) v b).1 = contentElem svc v := by
  cases e with
  | sub d =>
    simp only [encElem, encElOf]
    cases v with
    | null => rw [hc.1]; exact ⟨ht, rfl⟩
    | obj c fs =>
      simp only [elemHasType, EWTy.java, Bool.and_eq_true, decide_eq_true_eq] at ht
      obtain ⟨rfl, ht⟩ := ht
      obtain ⟨fs', h1, h2, h3⟩ := hc.2 c fs b ht
      rw [h1]
      simp only [elemHasType, EWTy.java, contentElem, h2, h3]
      simp
    | num | str | list => simp [elemHasType, EWTy.java] at ht
  | _ => exact ⟨ht, rfl⟩

theorem encElems_keeps (svc : Registry) (call : EncCall) (hc : CallKeeps svc call) (k : Conv) (e : EWTy) (vs : List Val) (b : WBuf)
    (ht : elemsHaveType e.java vs = true) :
    elemsHaveType e.java (encElems call (encElOf k e) vs b).1 = true
      ∧ contentElems svc (encElems call (encElOf k e) vs b).1 = contentElems svc vs := by
  induction vs generalizing b with
  | nil => exact ⟨rfl, rfl⟩
  | cons v vs ih =>
    simp only [elemsHaveType, Bool.and_eq_true] at ht
    have h1 := encElem_keeps svc call hc k e v b ht.1
    simp only [encElems]
    revert h1
    rcases encElem call (encElOf k e) v b with ⟨v', b', _ | er⟩
    · intro h1
      have h2 := ih b' ht.2
      simp only [elemsHaveType, contentElems, Bool.and_eq_true]
      exact ⟨⟨h1.1, h2.1⟩, by rw [h1.2, h2.2]⟩
    · intro h1
      simp only [elemsHaveType, contentElems, Bool.and_eq_true]
      exact ⟨⟨h1.1, ht.2⟩, by rw [h1.2]⟩

theorem call_keeps_field (svc : Registry) (call : EncCall) (hc : CallKeeps svc call) (t : WTy) (v : Val) (b : WBuf)
    (hs : (∃ c, t = .sub c) ∨ ∃ fac key, t = .ext fac key) (ht : hasType t.java v = true) :
    hasType t.java (call v b).1 = true ∧ contentField svc t (call v b).1 = contentField svc t v := by
  cases v with
  | null => rw [hc.1]; exact ⟨ht, rfl⟩
  | obj c fs =>
    simp only [hasType, Bool.and_eq_true] at ht
    obtain ⟨fs', h1, h2, h3⟩ := hc.2 c fs b ht.2
    rw [h1]
    simp only [hasType, contentField, h2, h3, ht.1]
    simp
  | num | str | list => rcases hs with ⟨_, rfl⟩ | ⟨_, _, rfl⟩ <;> simp [hasType, WTy.java] at ht

theorem writeField_keeps (w : World) (call : EncCall) (hc : CallKeeps w.svc call) (k : Conv) (t : WTy) (v : Val) (b : WBuf)
    (hck : ∀ ct alg, t = .cksum ct alg → ct = .i32) (ht : hasType t.java v = true) :
    hasType t.java (writeField w call k t v b).1 = true
      ∧ contentField w.svc t (writeField w call k t v b).1 = contentField w.svc t v := by
  cases t with
  | num p => cases v <;> exact ⟨ht, rfl⟩
  | text n pad left => exact ⟨ht, rfl⟩
  | vstr => exact ⟨ht, rfl⟩
  | len lt => exact ⟨ht, rfl⟩
  | list e =>
    cases v with
    | list xs =>
      cases xs with
      | nil => exact ⟨ht, rfl⟩
      | cons x xs =>
        simp only [writeField]
        rcases writeInt b k.listLen k.order (x :: xs).length with ⟨b', _ | er⟩
        · have h := encElems_keeps w.svc call hc k e (x :: xs) b' (by simpa [hasType, WTy.java] using ht)
          simp only [hasType, WTy.java, contentField]
          exact ⟨h.1, by rw [h.2]⟩
        · exact ⟨ht, rfl⟩
    | null | num | str | obj => exact ⟨ht, rfl⟩
  | sub c => exact call_keeps_field w.svc call hc (.sub c) v b (.inl ⟨c, rfl⟩) ht
  | ext fac key =>
    have h := call_keeps_field w.svc call hc (.ext fac key) v b (.inr ⟨fac, key, rfl⟩) ht
    cases v with
    | null => exact ⟨ht, rfl⟩
    | num | str | list | obj => exact h
  | cksum p alg =>
    cases hck p alg rfl
    cases v with
    | num n =>
      simp only [hasType, WTy.java, decide_eq_true_eq] at ht
      simp only [writeField, Registry.getService]
      cases hs : w.svc alg with
      | none => exact ⟨by simp [hasType, WTy.java, ht], rfl⟩
      | some s => exact ⟨by simp [hasType, WTy.java], by simp [contentField, computedBy, hs]⟩
    | null | str | list | obj => simp [hasType, WTy.java] at ht

theorem patchLen_fst (k : Conv) (lt : PTy) (p q : Nat) (v2 : Val) (b : WBuf) :
    (patchLen k lt p q v2 b).1 = (.num (.int (BitVec.ofNat 32 b.wr - BitVec.ofNat 32 q)), v2) := by
  simp only [patchLen]
  cases (Num.int (BitVec.ofNat 32 b.wr - BitVec.ofNat 32 q)).convert lt <;> rfl

theorem writeLen_keeps (w : World) (call : EncCall) (hc : CallKeeps w.svc call) (k : Conv) (fac : Fac) (key : Nat) (v v2 : Val) (b : WBuf)
    (ht : hasType (WTy.len .i32).java v = true) (ht2 : hasType (WTy.ext fac key).java v2 = true) :
    hasType (WTy.len .i32).java (writeLen call k .i32 v v2 b).1.1 = true
      ∧ contentField w.svc (.len .i32) (writeLen call k .i32 v v2 b).1.1 = contentField w.svc (.len .i32) v
      ∧ hasType (WTy.ext fac key).java (writeLen call k .i32 v v2 b).1.2 = true
      ∧ contentField w.svc (.ext fac key) (writeLen call k .i32 v v2 b).1.2 = contentField w.svc (.ext fac key) v2 := by
  have hv : ∃ n, v = .num n := by
    cases v with
    | num n => exact ⟨n, rfl⟩
    | _ => simp [hasType, WTy.java] at ht
  obtain ⟨n, rfl⟩ := hv
  have hnum : ∀ x, hasType (WTy.len .i32).java (.num (.int x)) = true
      ∧ contentField w.svc (.len .i32) (.num (.int x)) = contentField w.svc (.len .i32) (.num n) :=
    fun x => ⟨by simp [hasType, WTy.java], by simp [contentField, computedBy]⟩
  simp only [writeLen]
  rcases writeInt b .i32 k.order 0 with ⟨b1, _ | e⟩
  · simp only
    have h := call_keeps_field w.svc call hc (.ext fac key) v2 b1 (.inr ⟨fac, key, rfl⟩) ht2
    cases v2 with
    | null =>
      simp only [patchLen_fst]
      exact ⟨(hnum _).1, (hnum _).2, ht2, trivial⟩
    | num | str | list | obj =>
      revert h
      simp only
      rcases call _ b1 with ⟨v2', b2, _ | e⟩
      · intro h
        simp only [patchLen_fst]
        exact ⟨(hnum _).1, (hnum _).2, h.1, h.2⟩
      · intro h
        exact ⟨ht, rfl, h.1, h.2⟩
  · exact ⟨ht, rfl, ht2, rfl⟩

theorem writeFields_keeps (w : World) (call : EncCall) (hc : CallKeeps w.svc call) (k : Conv) (ts : List WTy) (vs : List Val) (b : WBuf)
    (hok : lenOk ts = true) (ht : fieldsHaveType (ts.map WTy.java) vs = true) :
    fieldsHaveType (ts.map WTy.java) (writeFields w call k ts vs b).1 = true
      ∧ contentFields w.svc ts (writeFields w call k ts vs b).1 = contentFields w.svc ts vs := by
  fun_induction writeFields w call k ts vs b with
  | case1 lt fac key ts v v2 vs b r b' e heq =>
    simp only [lenOk, Bool.and_eq_true, decide_eq_true_eq] at hok
    obtain ⟨rfl, hok⟩ := hok
    simp only [List.map_cons, fieldsHaveType, Bool.and_eq_true] at ht
    have h := writeLen_keeps w call hc k fac key v v2 b ht.1 ht.2.1
    rw [heq] at h
    simp only [List.map_cons, fieldsHaveType, contentFields, Bool.and_eq_true]
    exact ⟨⟨h.1, h.2.2.1, ht.2.2⟩, by rw [h.2.1, h.2.2.2]⟩
  | case2 lt fac key ts v v2 vs b r b' heq ih =>
    simp only [lenOk, Bool.and_eq_true, decide_eq_true_eq] at hok
    obtain ⟨rfl, hok⟩ := hok
    simp only [List.map_cons, fieldsHaveType, Bool.and_eq_true] at ht
    have h := writeLen_keeps w call hc k fac key v v2 b ht.1 ht.2.1
    rw [heq] at h
    have h2 := ih hok ht.2.2
    simp only [List.map_cons, fieldsHaveType, contentFields, Bool.and_eq_true]
    exact ⟨⟨h.1, h.2.2.1, h2.1⟩, by rw [h.2.1, h.2.2.2, h2.2]⟩
  | case3 t ts v vs b hne v' b' e heq =>
    have hck : (∀ ct alg, t = .cksum ct alg → ct = .i32) := by
      cases t <;> simp [lenOk] at hok ⊢
      exact hok.1
    simp only [List.map_cons, fieldsHaveType, Bool.and_eq_true] at ht
    have h := writeField_keeps w call hc k t v b hck ht.1
    rw [heq] at h
    simp only [List.map_cons, fieldsHaveType, contentFields, Bool.and_eq_true]
    exact ⟨⟨h.1, ht.2⟩, by rw [h.2]⟩
  | case4 t ts v vs b hne v' b' heq ih =>
    have hck : (∀ ct alg, t = .cksum ct alg → ct = .i32) ∧ lenOk ts = true := by
      cases t <;> simp [lenOk] at hok ⊢ <;> try exact hok
      · cases ts with
        | nil => simp [lenOk] at hok
        | cons t2 ts =>
          exfalso
          cases t2 <;> simp [lenOk] at hok
          cases vs with
          | nil => simp [fieldsHaveType] at ht
          | cons v2 vs => exact hne _ _ _ _ _ _ rfl rfl rfl
    simp only [List.map_cons, fieldsHaveType, Bool.and_eq_true] at ht
    have h := writeField_keeps w call hc k t v b hck.1 ht.1
    rw [heq] at h
    have h2 := ih hck.2 ht.2
    simp only [List.map_cons, fieldsHaveType, contentFields, Bool.and_eq_true]
    exact ⟨⟨h.1, h2.1⟩, by rw [h.2, h2.2]⟩
  | case5 => exact ⟨ht, rfl⟩

theorem encode_keeps (w : World) (n : Nat) : CallKeeps w.svc (encode w n) := by
  induction n with
  | zero => exact ⟨fun b => by simp [encode], fun c fs b h => ⟨fs, rfl, h, rfl⟩⟩
  | succ n ih =>
    refine ⟨fun b => by simp [encode], fun c fs b h => ?_⟩
    have hl : fs.length = (wire c).length := by
      rw [fieldsHaveType_length _ _ h, type_table, List.length_map]
    rw [encode_form w n c fs b hl]
    rw [type_table] at h
    have := writeFields_keeps w (encode w n) ih (conv c.mod) (wire c) fs b (lenOk_table c) h
    exact ⟨_, rfl, by rw [type_table]; exact this.1, this.2⟩

/-! ### the effect does not depend on computed fields -/

/-- Objects with the same content are encoded alike. -/
def CallLock (svc : Registry) (call : EncCall) : Prop :=
  ∀ c fs fs' b, fieldsHaveType (javaTypes c) fs = true → fieldsHaveType (javaTypes c) fs' = true →
    contentFields svc (wire c) fs = contentFields svc (wire c) fs' →
    (call (.obj c fs) b).2 = (call (.obj c fs') b).2
      ∧ ((call (.obj c fs) b).2.2 = none → (call (.obj c fs) b).1 = (call (.obj c fs') b).1)

/-- Same effect on the buffer, same exception, and equal results unless it failed. -/
def Alike {α : Type} (r r' : α × WBuf × Option JErr) : Prop := r.2 = r'.2 ∧ (r.2.2 = none → r.1 = r'.1)

theorem Alike.refl {α : Type} (r : α × WBuf × Option JErr) : Alike r r := ⟨rfl, fun _ => rfl⟩

theorem encElem_lock (svc : Registry) (call : EncCall) (hc : CallLock svc call) (k : Conv) (e : EWTy) (v v' : Val) (b : WBuf)
    (ht : elemHasType e.java v = true) (ht' : elemHasType e.java v' = true) (h : contentElem svc v = contentElem svc v') :
    Alike (encElem call (encElOf k e) v b) (encElem call (encElOf k e) v' b) := by
  cases v with
  | obj c fs =>
    cases v' with
    | obj c' fs' =>
      simp only [contentElem, Val.obj.injEq] at h
      obtain ⟨rfl, h⟩ := h
      cases e with
      | sub d =>
        simp only [elemHasType, Bool.and_eq_true] at ht ht'
        exact hc c fs fs' b ht.2 ht'.2 h
      | _ => simp [elemHasType, EWTy.java] at ht
    | null | num | str | list => simp [contentElem] at h
  | null | num | str | list =>
    cases v' with
    | obj c fs => simp [contentElem] at h
    | _ =>
      simp only [contentElem] at h
      first | rw [h] | (cases h) | skip
      all_goals exact Alike.refl _

theorem encElems_lock (svc : Registry) (call : EncCall) (hc : CallLock svc call) (k : Conv) (e : EWTy) (vs vs' : List Val) (b : WBuf)
    (ht : elemsHaveType e.java vs = true) (ht' : elemsHaveType e.java vs' = true) (h : contentElems svc vs = contentElems svc vs') :
    Alike (encElems call (encElOf k e) vs b) (encElems call (encElOf k e) vs' b) := by
  induction vs generalizing b vs' with
  | nil =>
    cases vs' with
    | nil => exact Alike.refl _
    | cons => simp [contentElems] at h
  | cons v vs ih =>
    cases vs' with
    | nil => simp [contentElems] at h
    | cons v' vs' =>
      simp only [contentElems, List.cons.injEq] at h
      simp only [elemsHaveType, Bool.and_eq_true] at ht ht'
      have h1 := encElem_lock svc call hc k e v v' b ht.1 ht'.1 h.1
      simp only [encElems]
      revert h1
      rcases encElem call (encElOf k e) v b with ⟨x, b1, r⟩
      rcases encElem call (encElOf k e) v' b with ⟨x', b1', r'⟩
      rintro ⟨h1, h2⟩
      obtain ⟨rfl, rfl⟩ := Prod.mk.inj h1
      cases r with
      | some e => exact ⟨rfl, fun hn => by simp at hn⟩
      | none =>
        have h3 := ih vs' b1 ht.2 ht'.2 h.2
        have hx := h2 rfl
        simp only at hx
        subst hx
        simp only
        exact ⟨h3.1, fun hn => by simp only; rw [← h3.2 hn]⟩

theorem call_lock_field (svc : Registry) (call : EncCall) (hc : CallLock svc call) (t : WTy) (v v' : Val) (b : WBuf)
    (hs : (∃ c, t = .sub c) ∨ ∃ fac key, t = .ext fac key) (ht : hasType t.java v = true) (ht' : hasType t.java v' = true)
    (h : contentField svc t v = contentField svc t v') : Alike (call v b) (call v' b) := by
  cases v with
  | obj c fs =>
    cases v' with
    | obj c' fs' =>
      simp only [contentField, Val.obj.injEq] at h
      obtain ⟨rfl, h⟩ := h
      simp only [hasType, Bool.and_eq_true] at ht ht'
      exact hc c fs fs' b ht.2 ht'.2 h
    | null | str | list => simp [contentField] at h
    | num => rcases hs with ⟨_, rfl⟩ | ⟨_, _, rfl⟩ <;> simp [hasType, WTy.java] at ht'
  | null =>
    cases v' with
    | null => exact Alike.refl _
    | obj | str | list => simp [contentField] at h
    | num => rcases hs with ⟨_, rfl⟩ | ⟨_, _, rfl⟩ <;> simp [hasType, WTy.java] at ht'
  | num | str | list => rcases hs with ⟨_, rfl⟩ | ⟨_, _, rfl⟩ <;> simp [hasType, WTy.java] at ht

theorem content_null (svc : Registry) (t : WTy) (v : Val) (ht : hasType t.java v = true) (hn : ∀ p, t.java ≠ .prim p)
    (h : contentField svc t v = .null) : v = .null := by
  cases v with
  | null => rfl
  | num n =>
    cases hj : t.java with
    | prim p => exact absurd hj (hn p)
    | _ => rw [hj] at ht; simp [hasType] at ht
  | str | list | obj => simp [contentField] at h

theorem writeField_lock (w : World) (call : EncCall) (hc : CallLock w.svc call) (k : Conv) (t : WTy) (v v' : Val) (b : WBuf)
    (hlen : ∀ lt, t ≠ .len lt) (ht : hasType t.java v = true) (ht' : hasType t.java v' = true)
    (h : contentField w.svc t v = contentField w.svc t v') : Alike (writeField w call k t v b) (writeField w call k t v' b) := by
  have plain : (∀ xs, v ≠ .list xs) → (∀ c fs, v ≠ .obj c fs) → computedBy w.svc t = false → v = v' := by
    intro h1 h2 h3
    cases v with
    | list xs => exact absurd rfl (h1 xs)
    | obj c fs => exact absurd rfl (h2 c fs)
    | null | num | str => cases v' <;> simp [contentField, h3] at h ⊢ <;> exact h
  cases t with
  | num p =>
    have : v = v' := plain (by rintro xs rfl; simp [hasType, WTy.java] at ht) (by rintro c fs rfl; simp [hasType, WTy.java] at ht) rfl
    rw [this]; exact Alike.refl _
  | text n pad left =>
    have : v = v' := plain (by rintro xs rfl; simp [hasType, WTy.java] at ht) (by rintro c fs rfl; simp [hasType, WTy.java] at ht) rfl
    rw [this]; exact Alike.refl _
  | vstr =>
    have : v = v' := plain (by rintro xs rfl; simp [hasType, WTy.java] at ht) (by rintro c fs rfl; simp [hasType, WTy.java] at ht) rfl
    rw [this]; exact Alike.refl _
  | len lt => exact absurd rfl (hlen lt)
  | list e =>
    cases v with
    | list xs =>
      cases v' with
      | list ys =>
        simp only [contentField, Val.list.injEq] at h
        simp only [hasType, WTy.java] at ht ht'
        cases xs with
        | nil =>
          cases ys with
          | nil => exact Alike.refl _
          | cons => simp [contentElems] at h
        | cons x xs =>
          cases ys with
          | nil => simp [contentElems] at h
          | cons y ys =>
            have hlen' : (x :: xs).length = (y :: ys).length := by
              have : ∀ l : List Val, (contentElems w.svc l).length = l.length := by
                intro l
                induction l with
                | nil => rfl
                | cons a l ih => simp [contentElems, ih]
              rw [← this (x :: xs), ← this (y :: ys), h]
            simp only [writeField, hlen']
            rcases writeInt b k.listLen k.order (y :: ys).length with ⟨b', _ | er⟩
            · have := encElems_lock w.svc call hc k e (x :: xs) (y :: ys) b' ht ht' h
              exact ⟨this.1, fun hn => by simp only; rw [this.2 hn]⟩
            · exact ⟨rfl, fun hn => by simp at hn⟩
      | null | str | obj => simp [contentField] at h
      | num => simp [hasType, WTy.java] at ht'
    | null =>
      have : v' = .null := content_null w.svc _ v' ht' (by intro p; simp [WTy.java]) (by rw [← h]; rfl)
      rw [this]; exact Alike.refl _
    | num | str | obj => simp [hasType, WTy.java] at ht
  | sub c => exact call_lock_field w.svc call hc (.sub c) v v' b (.inl ⟨c, rfl⟩) ht ht' h
  | ext fac key =>
    have hcall := call_lock_field w.svc call hc (.ext fac key) v v' b (.inr ⟨fac, key, rfl⟩) ht ht' h
    cases v with
    | null =>
      have : v' = .null := content_null w.svc _ v' ht' (by intro p; simp [WTy.java]) (by rw [← h]; rfl)
      rw [this]; exact Alike.refl _
    | obj c fs =>
      cases v' with
      | null => simp [contentField] at h
      | num | str | list => simp [hasType, WTy.java] at ht'
      | obj => exact hcall
    | num | str | list => simp [hasType, WTy.java] at ht
  | cksum p alg =>
    simp only [writeField, Registry.getService]
    cases hs : w.svc alg with
    | none =>
      have : v = v' := plain (by rintro xs rfl; simp [hasType, WTy.java] at ht) (by rintro c fs rfl; simp [hasType, WTy.java] at ht)
        (by simp [computedBy, hs])
      rw [this]; exact Alike.refl _
    | some s => exact Alike.refl _

theorem writeLen_lock (w : World) (call : EncCall) (hc : CallLock w.svc call) (k : Conv) (lt : PTy) (fac : Fac) (key : Nat)
    (v v' v2 v2' : Val) (b : WBuf) (ht : hasType (WTy.ext fac key).java v2 = true) (ht' : hasType (WTy.ext fac key).java v2' = true)
    (h : contentField w.svc (.ext fac key) v2 = contentField w.svc (.ext fac key) v2') :
    Alike (writeLen call k lt v v2 b) (writeLen call k lt v' v2' b) := by
  simp only [writeLen]
  rcases writeInt b lt k.order 0 with ⟨b1, _ | e⟩
  · simp only
    have hcall := call_lock_field w.svc call hc (.ext fac key) v2 v2' b1 (.inr ⟨fac, key, rfl⟩) ht ht' h
    cases v2 with
    | null =>
      have : v2' = .null := content_null w.svc _ v2' ht' (by intro p; simp [WTy.java]) (by rw [← h]; rfl)
      rw [this]; exact Alike.refl _
    | obj c fs =>
      cases v2' with
      | null => simp [contentField] at h
      | num | str | list => simp [hasType, WTy.java] at ht'
      | obj c' fs' =>
        simp only
        revert hcall
        rcases call (.obj c fs) b1 with ⟨x, b2, r⟩
        rcases call (.obj c' fs') b1 with ⟨x', b2', r'⟩
        rintro ⟨h1, h2⟩
        obtain ⟨rfl, rfl⟩ := Prod.mk.inj h1
        cases r with
        | some e => exact ⟨rfl, fun hn => by simp at hn⟩
        | none =>
          have hx := h2 rfl
          simp only at hx
          rw [hx]
          exact Alike.refl _
    | num | str | list => simp [hasType, WTy.java] at ht
  · exact ⟨rfl, fun hn => by simp at hn⟩

theorem writeFields_lock (w : World) (call : EncCall) (hc : CallLock w.svc call) (k : Conv) (ts : List WTy) (vs vs' : List Val) (b : WBuf)
    (hok : lenOk ts = true) (ht : fieldsHaveType (ts.map WTy.java) vs = true) (ht' : fieldsHaveType (ts.map WTy.java) vs' = true)
    (h : contentFields w.svc ts vs = contentFields w.svc ts vs') :
    Alike (writeFields w call k ts vs b) (writeFields w call k ts vs' b) := by
  have step : ∀ (t : WTy) (ts : List WTy) (v v' : Val) (vs vs' : List Val) (b : WBuf)
      (hne : ∀ lt fac key ts' v2 vs2, t = .len lt → ts = .ext fac key :: ts' → vs = v2 :: vs2 → False)
      (hne' : ∀ lt fac key ts' v2 vs2, t = .len lt → ts = .ext fac key :: ts' → vs' = v2 :: vs2 → False)
      (h1 : Alike (writeField w call k t v b) (writeField w call k t v' b))
      (h2 : ∀ b, Alike (writeFields w call k ts vs b) (writeFields w call k ts vs' b)),
      Alike (writeFields w call k (t :: ts) (v :: vs) b) (writeFields w call k (t :: ts) (v' :: vs') b) := by
    intro t ts v v' vs vs' b hne hne' h1 h2
    rw [writeFields.eq_2 _ _ _ _ _ _ _ _ hne, writeFields.eq_2 _ _ _ _ _ _ _ _ hne']
    revert h1
    rcases writeField w call k t v b with ⟨x, b1, r⟩
    rcases writeField w call k t v' b with ⟨x', b1', r'⟩
    rintro ⟨e1, e2⟩
    obtain ⟨rfl, rfl⟩ := Prod.mk.inj e1
    cases r with
    | some e => exact ⟨rfl, fun hn => by simp at hn⟩
    | none =>
      have hx := e2 rfl
      simp only at hx
      subst hx
      have := h2 b1
      exact ⟨this.1, fun hn => by simp only; rw [this.2 hn]⟩
  fun_induction lenOk ts generalizing vs vs' b with
  | case1 =>
    cases vs <;> cases vs' <;> simp [fieldsHaveType] at ht ht'
    exact Alike.refl _
  | case2 lt fac key ts ih =>
    match vs, vs', ht, ht' with
    | v :: v2 :: vs, v' :: v2' :: vs', ht, ht' =>
      simp only [Bool.and_eq_true, decide_eq_true_eq] at hok
      simp only [List.map_cons, fieldsHaveType, Bool.and_eq_true] at ht ht'
      simp only [contentFields, List.cons.injEq] at h
      have h1 := writeLen_lock w call hc k lt fac key v v' v2 v2' b ht.2.1 ht'.2.1 h.2.1
      simp only [writeFields]
      revert h1
      rcases writeLen call k lt v v2 b with ⟨x, b1, r⟩
      rcases writeLen call k lt v' v2' b with ⟨x', b1', r'⟩
      rintro ⟨e1, e2⟩
      obtain ⟨rfl, rfl⟩ := Prod.mk.inj e1
      cases r with
      | some e => exact ⟨rfl, fun hn => by simp at hn⟩
      | none =>
        have hx := e2 rfl
        simp only at hx
        subst hx
        have := ih vs vs' b1 hok.2 ht.2.2 ht'.2.2 h.2.2
        exact ⟨this.1, fun hn => by simp only; rw [this.2 hn]⟩
    | [], _, ht, _ => simp [fieldsHaveType] at ht
    | [_], _, ht, _ => simp [fieldsHaveType] at ht
    | _ :: _ :: _, [], _, ht' => simp [fieldsHaveType] at ht'
    | _ :: _ :: _, [_], _, ht' => simp [fieldsHaveType] at ht'
  | case3 => simp at hok
  | case4 ct alg ts ih =>
    match vs, vs', ht, ht' with
    | v :: vs, v' :: vs', ht, ht' =>
      simp only [Bool.and_eq_true, decide_eq_true_eq] at hok
      simp only [List.map_cons, fieldsHaveType, Bool.and_eq_true] at ht ht'
      simp only [contentFields, List.cons.injEq] at h
      exact step _ _ _ _ _ _ _ (by rintro _ _ _ _ _ _ ⟨⟩) (by rintro _ _ _ _ _ _ ⟨⟩)
        (writeField_lock w call hc k _ v v' b (by rintro _ ⟨⟩) ht.1 ht'.1 h.1) (fun b => ih vs vs' b hok.2 ht.2 ht'.2 h.2)
    | [], _, ht, _ => simp [fieldsHaveType] at ht
    | _ :: _, [], _, ht' => simp [fieldsHaveType] at ht'
  | case5 t ts hn1 hn2 hn3 ih =>
    match vs, vs', ht, ht' with
    | v :: vs, v' :: vs', ht, ht' =>
      simp only [List.map_cons, fieldsHaveType, Bool.and_eq_true] at ht ht'
      simp only [contentFields, List.cons.injEq] at h
      have hnl : ∀ lt, t ≠ .len lt := fun lt e => hn2 lt e
      exact step _ _ _ _ _ _ _ (fun lt _ _ _ _ _ e => absurd e (hnl lt)) (fun lt _ _ _ _ _ e => absurd e (hnl lt))
        (writeField_lock w call hc k t v v' b hnl ht.1 ht'.1 h.1) (fun b => ih vs vs' b hok ht.2 ht'.2 h.2)
    | [], _, ht, _ => simp [fieldsHaveType] at ht
    | _ :: _, [], _, ht' => simp [fieldsHaveType] at ht'

theorem encode_lock (w : World) (n : Nat) : CallLock w.svc (encode w n) := by
  induction n with
  | zero =>
    intro c fs fs' b _ _ _
    exact ⟨rfl, fun h => by simp [encode] at h⟩
  | succ n ih =>
    intro c fs fs' b h h' hcon
    have hl : fs.length = (wire c).length := by
      rw [fieldsHaveType_length _ _ h, type_table, List.length_map]
    have hl' : fs'.length = (wire c).length := by
      rw [fieldsHaveType_length _ _ h', type_table, List.length_map]
    rw [encode_form w n c fs b hl, encode_form w n c fs' b hl']
    rw [type_table] at h h'
    have := writeFields_lock w (encode w n) ih (conv c.mod) (wire c) fs fs' b (lenOk_table c) h h' hcon
    exact ⟨this.1, fun hn => by simp only; rw [this.2 hn]⟩

end FinProto
