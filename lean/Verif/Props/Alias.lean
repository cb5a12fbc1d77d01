import Verif.Model.History
import Verif.Spec.Alias
import Verif.Props.Heap
import Verif.Props.HeapObjects
/-
C81: setters and list operations change exactly the messages that contain the object.
-/
namespace FinProto

/-- The heaps are the same but for the object at `r`, which shows `u` afterwards. -/
theorem shows_swapped (h h' : Heap) (r : Nat) (u : Val) (hd : ∀ q, q ≠ r → h'[q]? = h[q]?) (hu : Shows h' u (.ref r)) (v : Val) :
    ∀ x, Shows h v x → Shows h' (swapped h r u v x) x := by
  apply Val.rec
    (motive_1 := fun v => ∀ x, Shows h v x → Shows h' (swapped h r u v x) x)
    (motive_2 := fun vs => ∀ ys, ShowsAll h vs ys → ShowsAll h' (swappedAll h r u vs ys) ys)
  · intro x hx; rw [Shows] at hx; subst hx; simp [Shows, swapped]
  · intro n x hx; rw [Shows] at hx; subst hx; simp [Shows, swapped]
  · intro s x hx; rw [Shows] at hx; subst hx; simp [Shows, swapped]
  · intro xs ih x hx
    rw [Shows] at hx
    obtain ⟨a, ys, rfl, ha, hall⟩ := hx
    simp only [swapped]
    by_cases he : a = r
    · rw [if_pos he, he]; exact hu
    · rw [if_neg he, ha, Shows]
      exact ⟨a, ys, rfl, by rw [hd a he, ha], ih ys hall⟩
  · intro c fs ih x hx
    rw [Shows] at hx
    obtain ⟨a, ys, rfl, ha, hall⟩ := hx
    simp only [swapped]
    by_cases he : a = r
    · rw [if_pos he, he]; exact hu
    · rw [if_neg he, ha, Shows]
      exact ⟨a, ys, rfl, by rw [hd a he, ha], ih ys hall⟩
  · intro ys hy; rw [ShowsAll] at hy; subst hy; simp [ShowsAll, swappedAll]
  · intro v vs ih1 ih2 ys hy
    rw [ShowsAll] at hy
    obtain ⟨z, zs, rfl, hz, hzs⟩ := hy
    rw [swappedAll, ShowsAll_cons]
    exact ⟨ih1 z hz, ih2 zs hzs⟩

/-- Objects that cannot be reached do not matter. -/
theorem shows_elsewhere (h h' : Heap) (r : Nat) (hd : ∀ q, q ≠ r → h'[q]? = h[q]?) (v : Val) (x : HVal) (hs : Shows h v x)
    (hr : ¬ Reach h x r) : Shows h' v x := by
  refine (shows_frame h h' v x hs ?_).1
  intro q hq
  refine hd q fun he => hr ?_
  rw [← he]
  exact (refs_iff_reach h v x hs q).mp hq

theorem showsAll_elsewhere (h h' : Heap) (r : Nat) (hd : ∀ q, q ≠ r → h'[q]? = h[q]?) : ∀ (vs : List Val) (ys : List HVal),
    ShowsAll h vs ys → (∀ y ∈ ys, ¬ Reach h y r) → ShowsAll h' vs ys
  | [], ys, hs, _ => by rw [ShowsAll] at hs; subst hs; rw [ShowsAll]
  | v :: vs, ys, hs, hr => by
    rw [ShowsAll] at hs
    obtain ⟨z, zs, rfl, hz, hzs⟩ := hs
    rw [ShowsAll_cons]
    exact ⟨shows_elsewhere h h' r hd v z hz (hr z (List.mem_cons_self ..)),
      showsAll_elsewhere h h' r hd vs zs hzs fun y hy => hr y (List.mem_cons_of_mem _ hy)⟩

theorem showsAll_set (h : Heap) : ∀ (vs : List Val) (ys : List HVal) (f : Nat) (u : Val) (y : HVal), ShowsAll h vs ys → Shows h u y →
    ShowsAll h (vs.set f u) (ys.set f y)
  | [], ys, f, u, y, hs, _ => by rw [ShowsAll] at hs; subst hs; simp [ShowsAll]
  | v :: vs, ys, f, u, y, hs, hu => by
    rw [ShowsAll] at hs
    obtain ⟨z, zs, rfl, hz, hzs⟩ := hs
    cases f with
    | zero => rw [List.set_cons_zero, List.set_cons_zero, ShowsAll_cons]; exact ⟨hu, hzs⟩
    | succ f => rw [List.set_cons_succ, List.set_cons_succ, ShowsAll_cons]; exact ⟨hz, showsAll_set h vs zs f u y hzs hu⟩

/-- **C81 (setters).** `o.setF(y)`, where `y` shows `u` and does not contain `o`: afterwards `o` shows its old value with `u` in field `F`, and
every message shows what it showed before, with this new value in every place where `o` occurs. -/
theorem C81_setter (n : Nat) (p : Proc) (r f : Nat) (c : Cls) (fs : List Val) (u : Val) (y : HVal) (hr : Shows p.h (.obj c fs) (.ref r))
    (hy : Shows p.h u y) (hn : ¬ Reach p.h y r) (v : Val) (x : HVal) (hx : Shows p.h v x) :
    Shows (p.after n (.set r f y)).h (.obj c (fs.set f u)) (.ref r)
    ∧ Shows (p.after n (.set r f y)).h (swapped p.h r (.obj c (fs.set f u)) v x) x := by
  have hd : ∀ q, q ≠ r → (p.after n (.set r f y)).h[q]? = p.h[q]? := fun q hq => Heap.setField_ne p.h r f q y hq
  have hu : Shows (p.after n (.set r f y)).h (.obj c (fs.set f u)) (.ref r) := by
    have hr' := hr
    rw [Shows] at hr'
    obtain ⟨a, ys, e, ha, hall⟩ := hr'
    cases e
    rw [Shows]
    refine ⟨r, ys.set f y, rfl, Heap.setField_self p.h r f c ys y ha, ?_⟩
    refine showsAll_set _ _ _ _ _ _ (showsAll_elsewhere p.h _ r hd _ _ hall fun z hz hreach => ?_) (shows_elsewhere p.h _ r hd u y hy hn)
    exact no_cycle hr r (.here r) ⟨_, z, ha, hz, hreach⟩
  exact ⟨hu, shows_swapped p.h _ r _ hd hu v x hx⟩

/-- **C81 (list operations).** Whatever is done to a list (`add`, `set`, `remove`, `clear`, ...): when its elements afterwards show `us` and do
not contain the list, every message shows what it showed before, with these elements in every place where the list occurs. -/
theorem C81_list (n : Nat) (p : Proc) (a : Nat) (vs us : List Val) (ys : List HVal) (ha : Shows p.h (.list vs) (.ref a))
    (hy : ShowsAll p.h us ys) (hn : ∀ y ∈ ys, ¬ Reach p.h y a) (v : Val) (x : HVal) (hx : Shows p.h v x) :
    Shows (p.after n (.put a ys)).h (.list us) (.ref a)
    ∧ Shows (p.after n (.put a ys)).h (swapped p.h a (.list us) v x) x := by
  have hd : ∀ q, q ≠ a → (p.after n (.put a ys)).h[q]? = p.h[q]? := by
    intro q hq
    exact List.getElem?_set_ne (Ne.symm hq)
  have hu : Shows (p.after n (.put a ys)).h (.list us) (.ref a) := by
    rw [Shows] at ha ⊢
    obtain ⟨a', zs, e, ha, hall⟩ := ha
    cases e
    exact ⟨a, ys, rfl, List.getElem?_set_self (List.getElem?_eq_some_iff.1 ha).1, showsAll_elsewhere p.h _ a hd _ _ hy hn⟩
  exact ⟨hu, shows_swapped p.h _ a _ hd hu v x hx⟩

/-- **C81 (nothing else changes).** A setter call on `o`, or an operation on a list, leaves alone every message of which `o`, or the list, is not
a part, whatever the new value; and a new object leaves all messages alone. -/
theorem C81_elsewhere (n : Nat) (p : Proc) (r : Nat) (v : Val) (x : HVal) (hx : Shows p.h v x) (hr : ¬ Reach p.h x r) :
    (∀ f y, Shows (p.after n (.set r f y)).h v x) ∧ (∀ ys, Shows (p.after n (.put r ys)).h v x) :=
  ⟨fun f y => shows_elsewhere p.h _ r (fun q hq => Heap.setField_ne p.h r f q y hq) v x hx hr,
    fun ys => shows_elsewhere p.h _ r (fun q hq => by exact List.getElem?_set_ne (Ne.symm hq)) v x hx hr⟩

theorem shows_append (h : Heap) (more : List HObj) (v : Val) (x : HVal) (hx : Shows h v x) : Shows (h ++ more) v x :=
  (shows_frame h (h ++ more) v x hx fun q hq => List.getElem?_append_left (refs_lt h v x hx q hq)).1

/-- **C81 (new objects).** `new C()` and `new ArrayList<>()` give an object that shows the initial values, is part of no message, and all
messages show what they showed. -/
theorem C81_new (n : Nat) (p : Proc) (v : Val) (x : HVal) (hx : Shows p.h v x) (c : Cls) :
    Shows (p.after n (.new c)).h v x ∧ Shows (p.after n .newList).h v x ∧ ¬ Reach (p.after n (.new c)).h x p.h.length
    ∧ Shows (p.after n (.new c)).h (fresh c) (.ref p.h.length) ∧ Shows (p.after n .newList).h (.list []) (.ref p.h.length) := by
  have h1 : Shows (p.h ++ [newMsg c]) v x := shows_append p.h _ v x hx
  refine ⟨h1, shows_append p.h _ v x hx, ?_, ?_, ?_⟩
  · intro hr
    have := (refs_iff_reach _ v x h1 _).mpr hr
    rw [(shows_frame p.h (p.h ++ [newMsg c]) v x hx fun q hq => List.getElem?_append_left (refs_lt p.h v x hx q hq)).2] at this
    exact absurd (refs_lt p.h v x hx _ this) (Nat.lt_irrefl _)
  · simp only [Proc.after, fresh]
    rw [Shows]
    refine ⟨p.h.length, (decl c).fields.map fun f => f.2.hdefault, rfl, by rw [List.getElem?_append_right (Nat.le_refl _)]; simp [newMsg], ?_⟩
    have : ∀ (l : List (String × FTy)) (h : Heap), ShowsAll h (l.map fun f => f.2.default) (l.map fun f => f.2.hdefault) := by
      intro l h
      induction l with
      | nil => simp [ShowsAll]
      | cons t l ih =>
        rw [List.map_cons, List.map_cons, ShowsAll_cons]
        refine ⟨?_, ih⟩
        cases t.2 <;> simp [FTy.default, FTy.hdefault, Shows]
    exact this _ _
  · simp only [Proc.after]
    rw [Shows]
    exact ⟨p.h.length, [], rfl, by rw [List.getElem?_append_right (Nat.le_refl _)]; simp, by rw [ShowsAll]⟩

/-- **C81 (getters).** `getF` gives what `setF` was given, the same object, and the other getters of all objects give what they gave. -/
theorem C81_getter (n : Nat) (p : Proc) (r f : Nat) (y : HVal) (hf : (p.h.field r f).isSome = true) :
    (p.after n (.set r f y)).h.field r f = some y
    ∧ ∀ q g, (q ≠ r ∨ g ≠ f) → (p.after n (.set r f y)).h.field q g = p.h.field q g := by
  have : ∃ c ys, p.h[r]? = some (.msg c ys) ∧ f < ys.length := by
    unfold Heap.field at hf
    split at hf
    · next c ys hr => exact ⟨c, ys, hr, by simpa using hf⟩
    · cases hf
  obtain ⟨c, ys, hr, hlt⟩ := this
  have hs : (p.after n (.set r f y)).h[r]? = some (.msg c (ys.set f y)) := Heap.setField_self p.h r f c ys y hr
  refine ⟨by rw [Heap.field_msg _ _ _ _ _ hs, List.getElem?_set_self hlt], ?_⟩
  intro q g hg
  by_cases hq : q = r
  · subst hq
    rcases hg with hg | hg
    · exact absurd rfl hg
    · rw [Heap.field_msg _ _ _ _ _ hs, Heap.field_msg _ _ _ _ _ hr, List.getElem?_set_ne (Ne.symm hg)]
  · unfold Heap.field
    rw [show (p.after n (.set r f y)).h[q]? = p.h[q]? from Heap.setField_ne p.h r f q y hq]

/-- A path to an object does not need the object itself before its end. -/
theorem reach_kept {h h' : Heap} {r : Nat} (hd : ∀ q, q ≠ r → h'[q]? = h[q]?) {x : HVal} {q : Nat} (hr : Reach h x q) (hq : q = r) :
    Reach h' x r := by
  induction hr with
  | here a => rw [hq]; exact .here r
  | step a b o y ho hy _ ih =>
    by_cases ha : a = r
    · rw [ha]; exact .here r
    · exact .step a r o y (by rw [hd a ha, ho]) hy (ih hq)

/-- **C81 (a message inside itself).** If the new value does contain `o`, the condition of the first theorem is not met and rightly so: then no
message that contains `o` shows any value any more, that is, following its references never ends. -/
theorem C81_cycle (n : Nat) (p : Proc) (r f : Nat) (y : HVal) (hf : (p.h.field r f).isSome = true) (hn : Reach p.h y r) (x : HVal)
    (hx : Reach (p.after n (.set r f y)).h x r) (v : Val) : ¬ Shows (p.after n (.set r f y)).h v x := by
  intro hs
  have : ∃ c ys, p.h[r]? = some (.msg c ys) ∧ f < ys.length := by
    unfold Heap.field at hf
    split at hf
    · next c ys hr => exact ⟨c, ys, hr, by simpa using hf⟩
    · cases hf
  obtain ⟨c, ys, hr, hlt⟩ := this
  have hr' : (p.after n (.set r f y)).h[r]? = some (.msg c (ys.set f y)) := Heap.setField_self p.h r f c ys y hr
  refine no_cycle hs r hx ⟨_, y, hr', ?_, reach_kept (fun q hq => Heap.setField_ne p.h r f q y hq) hn rfl⟩
  exact List.mem_set hlt _

/-- **C81 (bytes).** So after `o.setF(y)`, encoding any message writes the bytes (or throws the exception) of its old value with the new value of
`o` in every place where `o` occurs; and of its old value if `o` is not part of it. -/
theorem C81_encode (w : World) (m n : Nat) (p : Proc) (r f : Nat) (c : Cls) (fs : List Val) (u : Val) (y : HVal)
    (hr : Shows p.h (.obj c fs) (.ref r)) (hy : Shows p.h u y) (hn : ¬ Reach p.h y r) (v : Val) (x : HVal) (hx : Shows p.h v x) (b : WBuf) :
    (hencode w m x (p.after n (.set r f y)).h b).2 = (encode w m (swapped p.h r (.obj c (fs.set f u)) v x) b).2
    ∧ (¬ Reach p.h x r → (hencode w m x (p.after n (.set r f y)).h b).2 = (encode w m v b).2) :=
  ⟨C64_shared_bytes w m _ _ x b (C81_setter n p r f c fs u y hr hy hn v x hx).2,
    fun h => C64_shared_bytes w m _ _ x b ((C81_elsewhere n p r v x hx h).1 f y)⟩

/-- The shared objects of C64, in a process. -/
def aliasProc : Proc := ⟨sharedHeap, World.initial.svc, fun _ _ => none, fun _ => .enc ⟨[], ⟨[], 0, 0⟩, none⟩⟩

/-- The sub-packet the message contains four times. -/
def changedSub : Val := .obj .sample_SubPacket [.num ⟨.i32, 8⟩, .list [.num ⟨.i16, 5⟩]]

/-- One setter call, four places of the message change. -/
example : Shows (aliasProc.after 9 (.set 0 0 (.num ⟨.i32, 8⟩))).h (.obj .sample_NestedPacket [changedSub, .list [changedSub, changedSub, changedSub],
    .obj .sample_NestedPacket_InerPacket [.num ⟨.i32, 9⟩, .list [.num ⟨.i16, 5⟩]]]) (.ref 4) :=
  (C81_setter 9 aliasProc 0 0 .sample_SubPacket [.num ⟨.i32, 7⟩, .list [.num ⟨.i16, 5⟩]] (.num ⟨.i32, 8⟩) (.num ⟨.i32, 8⟩) (by decide +kernel)
    (by decide +kernel) (by intro h; cases h) sharedVal (.ref 4) (by decide +kernel)).2

/-- One element is added to a list of numbers that occurs in both kinds of sub-packets. -/
example : Shows (aliasProc.after 9 (.put 1 [.num ⟨.i16, 5⟩, .num ⟨.i16, 6⟩])).h (.obj .sample_NestedPacket_InerPacket
    [.num ⟨.i32, 9⟩, .list [.num ⟨.i16, 5⟩, .num ⟨.i16, 6⟩]]) (.ref 3) :=
  (C81_list 9 aliasProc 1 [.num ⟨.i16, 5⟩] [.num ⟨.i16, 5⟩, .num ⟨.i16, 6⟩] [.num ⟨.i16, 5⟩, .num ⟨.i16, 6⟩] (by decide +kernel)
    (by simp [ShowsAll, Shows]) (by intro y hy h; simp at hy; rcases hy with rfl | rfl <;> cases h)
    (.obj .sample_NestedPacket_InerPacket [.num ⟨.i32, 9⟩, .list [.num ⟨.i16, 5⟩]]) (.ref 3) (by decide +kernel)).2

/-- The inner packet does not contain the sub-packet, so a setter call on the latter does not show in it. -/
example : ¬ Reach aliasProc.h (.ref 3) 0 := by
  have : Shows aliasProc.h (.obj .sample_NestedPacket_InerPacket [.num ⟨.i32, 9⟩, .list [.num ⟨.i16, 5⟩]]) (.ref 3) := by decide +kernel
  rw [← refs_iff_reach _ _ _ this]
  decide +kernel

/-- A frame that is made its own body. -/
example (v : Val) : ¬ Shows ((⟨[newMsg .sample_RootPacket], World.initial.svc, fun _ _ => none, fun _ => .enc ⟨[], ⟨[], 0, 0⟩, none⟩⟩ : Proc).after 9
    (.set 0 2 (.ref 0))).h v (.ref 0) :=
  C81_cycle 9 _ 0 2 (.ref 0) (by decide +kernel) (.here 0) (.ref 0) (.here 0) v

/-- `C81_elsewhere`: the third message does not contain the first. -/
example := C81_elsewhere 9 aliasProc 0 (.obj .sample_NestedPacket_InerPacket [.num ⟨.i32, 9⟩, .list [.num ⟨.i16, 5⟩]]) (.ref 3) (by decide +kernel)
  (by rw [← refs_iff_reach _ _ _ (by decide +kernel : Shows aliasProc.h (.obj .sample_NestedPacket_InerPacket [.num ⟨.i32, 9⟩, .list [.num ⟨.i16, 5⟩]]) (.ref 3))]; decide +kernel)

/-- `C81_new`. -/
example := C81_new 9 aliasProc sharedVal (.ref 4) (by decide +kernel) .sse_Logon

/-- `C81_getter`. -/
example := C81_getter 9 aliasProc 0 1 .null (by decide +kernel)

/-- `C81_encode`: a part is changed that the message contains four times. -/
example := C81_encode World.initial 9 9 aliasProc 0 0 .sample_SubPacket [.num ⟨.i32, 7⟩, .list [.num ⟨.i16, 5⟩]] (.num ⟨.i32, 8⟩) (.num ⟨.i32, 8⟩)
  (by decide +kernel) (by decide +kernel) (by intro h; cases h) sharedVal (.ref 4) (by decide +kernel) ⟨[], 0, 100⟩

end FinProto
