import Verif.Props.Iter
import Verif.Lemmas.Utf8

/-!
# C61: information messages give their text
-/

namespace Ublox.Props

open Spec Gen

/-- The five information messages of the interface description: class 04, ids in the order error,
warning, notice, test output, debug output. -/
def infMessages : List (UInt8 × PackDesc) :=
  [(0x00, infError_), (0x01, infWarning_), (0x02, infNotice_), (0x03, infTest_), (0x04, infDebug_)]

/-- **C61**: every payload of an information message is delivered as the message of that id, and
`message` is the whole payload if that is UTF-8 text (the encoding of a list of characters) and
`None` otherwise. -/
theorem c61_text {id : UInt8} {d : PackDesc} (hd : (id, d) ∈ infMessages) (payload : Bytes) :
    matchPacket 0x04 id payload = .ok (.ok (.known d payload)) ∧
    ((∃ cs : List Char, payload = cs.flatMap String.utf8EncodeChar) →
      d.get "message" payload = .ok (.optStr (some payload))) ∧
    ((¬ ∃ cs : List Char, payload = cs.flatMap String.utf8EncodeChar) →
      d.get "message" payload = .ok (.optStr none)) := by
  have hf : d.fields = [{ name := "message", ty := .tail, map := some .infStr, mayFail := true, getAsRef := true }] :=
    (by decide +kernel : ∀ x ∈ infMessages, x.2.fields =
      [{ name := "message", ty := .tail, map := some .infStr, mayFail := true, getAsRef := true }]) _ hd
  have hone : (recvPackets.filter fun d => decide ((0x04 : UInt8) = d.cls ∧ id = d.id)) = [d] :=
    (by decide +kernel : ∀ x ∈ infMessages,
      (recvPackets.filter fun d => decide ((0x04 : UInt8) = d.cls ∧ x.1 = d.id)) = [x.2]) _ hd
  have hv : Valid d payload := by
    refine ⟨?_, fun i f hi => ?_⟩
    · unfold LenOk required
      simp [hf, total, width]
    · rw [hf] at hi
      cases i with
      | zero =>
        simp only [List.getElem?_cons_zero, Option.some.injEq] at hi
        subst hi
        exact fun _ => trivial
      | succ i => simp at hi
  have hm := (delivered_iff hone payload).mpr hv
  have hr := (delivered hm).1
  obtain ⟨bs, h1, h2⟩ := get_tail (i := 0) (recv_wf hr) (names_nodup d (recv_readable _ hr).1)
    (by rw [hf]; rfl) rfl hv.1
  simp only [fieldBytes, hf, start, List.take_zero, if_true] at h1
  have hb : bs = payload := h1
  subst hb
  have hget : d.get "message" bs = .ok (.optStr (Inf.convertToStr bs)) := h2
  refine ⟨hm, fun hc => ?_, fun hc => ?_⟩
  · rw [hget, Inf.convertToStr, if_pos ((utf8Valid_iff bs).mpr hc)]
  · rw [hget, Inf.convertToStr, if_neg (fun h => hc ((utf8Valid_iff bs).mp h))]

/-- Both cases occur. -/
example : infWarning_.get "message" [0x68, 0xc3, 0xa9] = .ok (.optStr (some [0x68, 0xc3, 0xa9])) ∧
    infWarning_.get "message" [0x68, 0xc3] = .ok (.optStr none) := by decide +kernel

end Ublox.Props
