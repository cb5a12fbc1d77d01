import Verif.Proofs.Fixed
import Verif.Proofs.Resume
/-
Helper lemmas: replacing the bytes of one field of fixed width.
-/
namespace FinProto

/-- `f` succeeds with `a` on the bytes `X`, wherever they are. -/
def Takes {α : Type} (f : Reader α) (X : List Byte) (a : α) : Prop :=
  ∀ pre post sp, f ⟨pre ++ X ++ post, sp, pre.length⟩ = (a, ⟨pre ++ X ++ post, sp, pre.length + X.length⟩, none)

theorem Takes.bind {α β : Type} {f : Reader α} {g : α → Reader β} (h : α → β) {X Y : List Byte} {a : α} {r : β} (hf : Takes f X a)
    (hg : Takes (g a) Y r) : Takes (Reader.bind f g h) (X ++ Y) r := by
  intro pre post sp
  have h1 := hf pre (Y ++ post) sp
  have h2 := hg (pre ++ X) post sp
  simp only [List.append_assoc, List.length_append] at h1 h2 ⊢
  simp only [Reader.bind, h1, h2, Nat.add_assoc]

theorem Takes.unbind {α β : Type} {f : Reader α} {g : α → Reader β} {h : α → β} (hf : Law f) (hg : ∀ a, Law (g a)) {X : List Byte} {r : β}
    (hr : Takes (Reader.bind f g h) X r) : ∃ X1 X2 a, X = X1 ++ X2 ∧ Takes f X1 a ∧ Takes (g a) X2 r := by
  have h0 := hr [] [] []
  simp only [List.nil_append, List.append_nil, List.length_nil, Nat.zero_add, Reader.bind] at h0
  have hd := hf.data ⟨X, [], 0⟩
  have hs := hf.spare ⟨X, [], 0⟩
  have hl := hf.local' ⟨X, [], 0⟩
  revert h0 hd hs hl
  rcases f ⟨X, [], 0⟩ with ⟨a, ⟨d, s, rd⟩, _ | e⟩ <;> intro h0 hd hs hl
  · simp only at hd hs h0
    subst hd hs
    obtain ⟨X1, hp, hrd, hacc⟩ := hl rfl
    simp only [List.append_nil, List.drop_zero, Nat.zero_add] at hp hrd
    subst hrd
    obtain ⟨X2, hp2, hrd2, hacc2⟩ := (hg a).local' _ (by rw [h0])
    rw [h0] at hrd2 hacc2
    simp only [List.append_nil] at hp2 hrd2
    obtain ⟨q, rfl⟩ := hp
    rw [List.drop_left] at hp2
    have : X2 = q := hp2.eq_of_length (by simp at hrd2; omega)
    subst this
    exact ⟨X1, X2, a, rfl, fun pre post sp => (hacc pre).1 post sp, fun pre post sp => (hacc2 pre).1 post sp⟩
  · simp at h0

theorem readFields_bind (w : World) (call : DecCall) (k : Conv) (done : List Val) (t : WTy) (ts : List WTy) (old : Val) (olds : List Val) :
    readFields w call k done (t :: ts) (old :: olds) =
      Reader.bind (readField w call k done t old) (fun v => readFields w call k (done ++ [v]) ts olds) (fun v => done ++ v :: olds) := by
  funext b
  simp only [readFields, Reader.bind]
  rcases readField w call k done t old b with ⟨v, b', _ | e⟩ <;> rfl

theorem law_readFields (w : World) (call : DecCall) (hc : ∀ c fs, Law (call c fs)) (k : Conv) (ts : List WTy) :
    ∀ (done olds : List Val), Law (readFields w call k done ts olds) := by
  induction ts with
  | nil =>
    intro done olds
    have : readFields w call k done [] olds = fun b => (done ++ olds, b, none) := by funext b; cases olds <;> simp [readFields]
    rw [this]; exact Law.pure _
  | cons t ts ih =>
    intro done olds
    cases olds with
    | nil =>
      have : readFields w call k done (t :: ts) [] = fun b => (done ++ [], b, none) := by funext b; simp [readFields]
      rw [this]; exact Law.pure _
    | cons old olds =>
      rw [readFields_bind]
      exact Law.bind _ (law_readField w call hc k done t old) fun v => ih _ _

/-- The values read before matter only as keys. -/
theorem readFields_swap (w : World) (call : DecCall) (k : Conv) (ts : List WTy) : ∀ (done olds : List Val) (j : Nat) (x : Val) (b : RBuf), j < done.length →
    (∀ f key, WTy.ext f key ∈ ts → key ≠ j) →
    readFields w call k (done.set j x) ts olds b =
      ((readFields w call k done ts olds b).1.set j x, (readFields w call k done ts olds b).2) := by
  induction ts with
  | nil =>
    intro done olds j x b hj _
    cases olds <;> simp [readFields, hj]
  | cons t ts ih =>
    intro done olds j x b hj hk
    cases olds with
    | nil => simp [readFields]
    | cons old olds =>
      have h1 : readField w call k (done.set j x) t old b = readField w call k done t old b := by
        cases t with
        | ext f key =>
          have := hk f key (by simp)
          simp only [readField, List.getElem?_set_ne (Ne.symm this)]
        | _ => rfl
      simp only [readFields, h1]
      rcases readField w call k done t old b with ⟨v, b', _ | e⟩
      · have := ih (done ++ [v]) olds j x b' (by simp; omega) (fun f key h => hk f key (by simp [h]))
        rw [List.set_append, if_pos hj] at this
        exact this
      · simp [hj]

theorem takes_fixed (w : World) (call : DecCall) (k : Conv) (done : List Val) (t : WTy) (old : Val) (n : Nat) (hn : t.width? = some n) (X : List Byte)
    (hX : X.length = n) : Takes (readField w call k done t old) X (fieldValue k t X) := by
  intro pre post sp
  rw [readField_fixed w call k done t old _ n hn (by simp; omega)]
  have : (((pre ++ X ++ post).drop pre.length).take n) = X := by
    rw [List.append_assoc, List.drop_left, ← hX, List.take_left]
  simp only [this, hX]

theorem fixed_takes (w : World) (call : DecCall) (k : Conv) (done : List Val) (t : WTy) (old v : Val) (n : Nat) (hn : t.width? = some n) (X : List Byte)
    (h : Takes (readField w call k done t old) X v) : X.length = n ∧ v = fieldValue k t X := by
  have h0 := h [] [] []
  obtain ⟨h1, h2⟩ := readField_fixed_ok w call k done t old v _ _ n hn h0
  simp only [List.nil_append, List.append_nil, List.length_nil, Nat.zero_add, RBuf.mk.injEq, true_and, List.drop_zero] at h1 h2
  refine ⟨h2, ?_⟩
  rw [h1, ← h2, List.take_length]

theorem takes_get (w : World) (call : DecCall) (k : Conv) (ts : List WTy) (done olds : List Val) (X : List Byte) (r : List Val) (j : Nat) (hj : j < done.length)
    (h : Takes (readFields w call k done ts olds) X r) : r[j]? = done[j]? := by
  have h0 := h [] [] []
  have := readFields_prefix w call k ts done olds ⟨[] ++ X ++ [], [], 0⟩
  rw [List.length_nil] at h0
  rw [h0] at this
  obtain ⟨q, hq⟩ := this
  simp only at hq
  rw [← hq, List.getElem?_append_left hj]

/-- Replacing the bytes of a field of fixed width that is no key. -/
theorem readFields_patch (w : World) (call : DecCall) (hc : ∀ c fs, Law (call c fs)) (k : Conv) (ts : List WTy) : ∀ (i n : Nat) (t : WTy) (done olds : List Val)
    (X : List Byte) (r : List Val), ts[i]? = some t → t.width? = some n → olds.length = ts.length →
    (∀ f key, WTy.ext f key ∈ ts → key ≠ done.length + i) → Takes (readFields w call k done ts olds) X r →
    ∃ front old behind, X = front ++ old ++ behind ∧ old.length = n ∧ r[done.length + i]? = some (fieldValue k t old)
      ∧ (∀ o, offset? ts i = some o → front.length = o)
      ∧ ∀ new : List Byte, new.length = n →
          Takes (readFields w call k done ts olds) (front ++ new ++ behind) (r.set (done.length + i) (fieldValue k t new)) := by
  induction ts with
  | nil => intro i n t done olds X r ht; simp at ht
  | cons t0 ts ih =>
    intro i n t done olds X r ht hn hl hk hr
    cases olds with
    | nil => simp at hl
    | cons old olds =>
      rw [readFields_bind] at hr ⊢
      obtain ⟨X1, X2, v, rfl, h1, h2⟩ := hr.unbind (law_readField w call hc k done t0 old) (fun v => law_readFields w call hc k ts _ _)
      cases i with
      | zero =>
        simp only [List.getElem?_cons_zero, Option.some.injEq] at ht
        subst ht
        obtain ⟨hx, rfl⟩ := fixed_takes w call k done t0 old v n hn X1 h1
        refine ⟨[], X1, X2, rfl, hx, ?_, ?_, ?_⟩
        · rw [takes_get w call k ts _ olds X2 r _ (by simp) h2]; simp
        · intro o ho; simpa [offset?] using ho
        · intro new hnew
          refine (takes_fixed w call k done t0 old n hn new hnew).bind _ ?_
          intro pre post sp
          have hs : (done ++ [fieldValue k t0 X1]).set done.length (fieldValue k t0 new) = done ++ [fieldValue k t0 new] := by simp
          rw [← hs, readFields_swap w call k ts _ olds done.length _ _ (by simp) (fun f key h => hk f key (by simp [h])), h2 pre post sp]
          rfl
      | succ i =>
        simp only [List.getElem?_cons_succ] at ht
        have he : done.length + (i + 1) = (done ++ [v]).length + i := by simp; omega
        obtain ⟨front, o, behind, rfl, ho, hget, hoff, hnew⟩ := ih i n t (done ++ [v]) olds X2 r ht hn (by simpa using hl)
          (fun f key h => by rw [← he]; exact hk f key (by simp [h])) h2
        refine ⟨X1 ++ front, o, behind, by simp only [List.append_assoc], ho, by rw [he]; exact hget, ?_, ?_⟩
        · intro o' ho'
          obtain ⟨m, o'', hm, ho'', rfl⟩ := offset?_cons t0 ts i o' ho'
          rw [List.length_append, hoff o'' ho'', (fixed_takes w call k done t0 old v m hm X1 h1).1]
        · intro new hnl
          have := Takes.bind (g := fun v => readFields w call k (done ++ [v]) ts olds) (fun v => done ++ v :: olds) h1 (hnew new hnl)
          rw [he]
          simpa only [List.append_assoc] using this

end FinProto
