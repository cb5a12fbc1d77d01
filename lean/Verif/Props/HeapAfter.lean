import Verif.Spec.HeapAfter
import Verif.Proofs.HeapShows
import Verif.Props.Heap
import Verif.Props.Retry
/-
C88: what messages that share parts show, and send, after some of them have been encoded.
-/
namespace FinProto

theorem afterEncodes_chg (w : World) : ∀ (earlier : List (Nat × HVal × WBuf)) (h : Heap), Chg w h (afterEncodes w earlier h)
  | [], h => Chg.refl w h
  | (n, x, b) :: rest, h => (hencode_chg w n x h b).trans (afterEncodes_chg w rest _)

/-- **C88.** Whatever has been encoded before - this message, others, messages that contain parts of it or are contained in it, with or without
success - `encode` writes the bytes and throws the exception it would have on the heap before all these calls. -/
theorem C88_bytes (w : World) (earlier : List (Nat × HVal × WBuf)) (m : Nat) (h : Heap) (v : Val) (x : HVal) (b : WBuf) (hs : Shows h v x) :
    (hencode w m x (afterEncodes w earlier h) b).2 = (hencode w m x h b).2 := by
  have h0 := shows_sim w h v x hs
  rw [(hencode_sim w m v x h b h0).1, (hencode_sim w m v x _ b (sim_chg (afterEncodes_chg w earlier h) v x h0)).1]

/-- **C88.** After `encode`, normal or not, a message with shared parts shows what a message built from separate objects would show. -/
theorem C88_shows (w : World) (n : Nat) (h : Heap) (v : Val) (x : HVal) (b : WBuf) (hv : wellTyped v = true) (hs : Shows h v x) :
    Shows (hencode w n x h b).1 (encode w n v b).1 x :=
  hencode_shows w n v x h b (.inr hv) hs

/-- **C88.** `encode` changes objects of the message only: an object that cannot be reached from the message stays as it is. -/
theorem C88_outside (w : World) (n : Nat) (h : Heap) (x : HVal) (b : WBuf) (q : Nat) (hq : ¬ Reach h x q) :
    (hencode w n x h b).1[q]? = h[q]? :=
  hencode_outside w n x h b q hq

/-- **C88.** Another message shows after `encode` what it showed before, unless the two have a frame in common. -/
theorem C88_others (w : World) (n : Nat) (h : Heap) (x y : HVal) (u : Val) (b : WBuf) (hu : Shows h u y)
    (hsep : ∀ (q : Nat) c ys, Reach h x q → Reach h y q → h[q]? = some (.msg c ys) → hasComputed c = false) :
    Shows (hencode w n x h b).1 u y := by
  refine (shows_frame h _ u y hu fun q hq => ?_).1
  have hy := (refs_iff_reach h u y hu q).mp hq
  by_cases hx : Reach h x q
  · cases ho : h[q]? with
    | none => exact absurd (refs_lt h u y hu q hq) (by simpa using ho)
    | some o =>
      rw [← ho]
      exact chg_plain (hencode_chg w n x h b) ho fun c ys e => hsep q c ys hx hy (by rw [ho, e])
  · exact hencode_outside w n x h b q hx

/-- **C88.** A message without frames leaves every object as it is, so everybody's messages show what they showed. -/
theorem C88_plain (w : World) (n : Nat) (h : Heap) (v : Val) (x : HVal) (b : WBuf) (hs : Shows h v x) (hf : frameless v = true) :
    (hencode w n x h b).1 = h :=
  hencode_frameless w n v x h b hs hf

/-- **C88.** Attempts at encoding one and the same message: after any of them the message shows what the attempts on a message of its own would
have left, and a later successful `encode` leaves the same as a first one. -/
theorem C88_attempts (w : World) (earlier : List (Nat × WBuf)) (h : Heap) (v : Val) (x : HVal) (hv : wellTyped v = true) (hs : Shows h v x) :
    Shows (afterEncodes w (earlier.map fun a => (a.1, x, a.2)) h) (attempts w earlier v) x
      ∧ ∀ m b, (hencode w m x h b).2.2 = none →
        Shows (hencode w m x (afterEncodes w (earlier.map fun a => (a.1, x, a.2)) h) b).1 (encode w m v b).1 x := by
  have key : ∀ (earlier : List (Nat × WBuf)) (h : Heap) (v : Val), wellTyped v = true → Shows h v x →
      Shows (afterEncodes w (earlier.map fun a => (a.1, x, a.2)) h) (attempts w earlier v) x ∧ wellTyped (attempts w earlier v) = true := by
    intro earlier
    induction earlier with
    | nil => intro h v hv hs; exact ⟨hs, hv⟩
    | cons a rest ih =>
      intro h v hv hs
      exact ih _ _ (C53_content_kept w a.1 v a.2 hv).1 (C88_shows w a.1 h v x a.2 hv hs)
  obtain ⟨h1, h2⟩ := key earlier h v hv hs
  refine ⟨h1, fun m b hok => ?_⟩
  have h3 := C88_shows w m _ _ x b h2 h1
  rw [(C53_retries w earlier m v b hv).2 (by rw [← C64_shared_bytes w m h v x b hs]; exact hok)] at h3
  exact h3

/-! ### Cases -/

/-- One body in two frames, one of which is in a third one. -/
def twoFrames : Heap :=
  [.msg .sample_SubPacket [.num ⟨.i32, 7⟩, .null], .msg .sample_RootPacket [.num ⟨.i16, 3⟩, .num ⟨.i32, 0⟩, .ref 0, .num ⟨.i32, 0⟩],
   .msg .sample_RootPacket [.num ⟨.i16, 4⟩, .num ⟨.i32, 0⟩, .ref 0, .num ⟨.i32, 0⟩],
   .msg .sample_RootPacket [.num ⟨.i16, 5⟩, .num ⟨.i32, 0⟩, .ref 1, .num ⟨.i32, 0⟩]]

def subSeven : Val := .obj .sample_SubPacket [.num ⟨.i32, 7⟩, .null]
def frameAround (k : BitVec 16) (body : Val) : Val := .obj .sample_RootPacket [.num ⟨.i16, k⟩, .num ⟨.i32, 0⟩, body, .num ⟨.i32, 0⟩]

example : Shows twoFrames (frameAround 3 subSeven) (.ref 1) ∧ Shows twoFrames (frameAround 4 subSeven) (.ref 2)
    ∧ Shows twoFrames (frameAround 5 (frameAround 3 subSeven)) (.ref 3) ∧ wellTyped (frameAround 5 (frameAround 3 subSeven)) = true := by
  decide +kernel

/-- The outer frame is encoded, fails for lack of space, is encoded again; then the inner one. -/
def exEarlier : List (Nat × HVal × WBuf) := [(4, .ref 3, ⟨[], 0, 12⟩), (4, .ref 3, ⟨[], 0, 100⟩), (4, .ref 1, ⟨[9], 0, 100⟩)]

example : (hencode World.initial 4 (.ref 3) (afterEncodes World.initial exEarlier twoFrames) ⟨[], 0, 100⟩).2
    = (hencode World.initial 4 (.ref 3) twoFrames ⟨[], 0, 100⟩).2 :=
  C88_bytes World.initial exEarlier 4 twoFrames (frameAround 5 (frameAround 3 subSeven)) (.ref 3) _ (by decide +kernel)

example : (hencode World.initial 4 (.ref 3) twoFrames ⟨[], 0, 100⟩).2.1.data.length = 26
    ∧ (hencode World.initial 4 (.ref 3) twoFrames ⟨[], 0, 12⟩).2.2 = some .indexOutOfBounds
    ∧ afterEncodes World.initial exEarlier twoFrames ≠ twoFrames := by decide +kernel

/-- The frame at 2 shares the body with the message encoded, but no frame: it shows what it showed. -/
example : Shows (hencode World.initial 4 (.ref 3) twoFrames ⟨[], 0, 100⟩).1 (frameAround 4 subSeven) (.ref 2) := by
  have hy : Shows twoFrames (frameAround 4 subSeven) (.ref 2) := by decide +kernel
  refine C88_others World.initial 4 twoFrames (.ref 3) (.ref 2) _ _ hy fun q c ys hx hq ho => ?_
  have h1 := (refs_iff_reach _ _ _ hy q).mpr hq
  have h2 := (refs_iff_reach _ (frameAround 5 (frameAround 3 subSeven)) _ (by decide +kernel) q).mpr hx
  have e1 : refs twoFrames (frameAround 4 subSeven) (.ref 2) = [2, 0] := by decide +kernel
  have e2 : refs twoFrames (frameAround 5 (frameAround 3 subSeven)) (.ref 3) = [3, 1, 0] := by decide +kernel
  rw [e1] at h1
  rw [e2] at h2
  have : q = 0 := by simp only [List.mem_cons, List.not_mem_nil, or_false] at h1 h2; omega
  subst this
  cases ho
  decide +kernel

/-- **C88.** The condition is needed: encoding a frame changes what a frame around it shows. -/
theorem C88_common_frame : ∃ (h : Heap) (x y : HVal) (u : Val), Shows h u y ∧ wellTyped u = true
    ∧ ¬ Shows (hencode World.initial 4 x h ⟨[], 0, 100⟩).1 u y :=
  ⟨twoFrames, .ref 1, .ref 3, frameAround 5 (frameAround 3 subSeven), by decide +kernel⟩

example : (hencode World.initial 4 (.ref 0) twoFrames ⟨[], 0, 100⟩).1 = twoFrames :=
  C88_plain World.initial 4 twoFrames subSeven (.ref 0) _ (by decide +kernel) (by decide +kernel)

example : Shows (hencode World.initial 4 (.ref 3) twoFrames ⟨[], 0, 100⟩).1
    (encode World.initial 4 (frameAround 5 (frameAround 3 subSeven)) ⟨[], 0, 100⟩).1 (.ref 3) :=
  C88_shows World.initial 4 twoFrames _ (.ref 3) _ (by decide +kernel) (by decide +kernel)

/-- A failed attempt and a successful one; the body is in another frame too. -/
example : Shows (afterEncodes World.initial [(4, .ref 3, ⟨[], 0, 12⟩), (4, .ref 3, ⟨[], 0, 100⟩)] twoFrames)
    (attempts World.initial [(4, ⟨[], 0, 12⟩), (4, ⟨[], 0, 100⟩)] (frameAround 5 (frameAround 3 subSeven))) (.ref 3) :=
  (C88_attempts World.initial [(4, ⟨[], 0, 12⟩), (4, ⟨[], 0, 100⟩)] twoFrames _ (.ref 3) (by decide +kernel) (by decide +kernel)).1

example : (hencode World.initial 4 (.ref 3) twoFrames ⟨[], 0, 100⟩).1[2]? = twoFrames[2]? :=
  C88_outside World.initial 4 twoFrames (.ref 3) _ 2 fun h => by
    have := (refs_iff_reach _ (frameAround 5 (frameAround 3 subSeven)) _ (by decide +kernel) 2).mpr h
    have e2 : refs twoFrames (frameAround 5 (frameAround 3 subSeven)) (.ref 3) = [3, 1, 0] := by decide +kernel
    rw [e2] at this
    simp at this

end FinProto
