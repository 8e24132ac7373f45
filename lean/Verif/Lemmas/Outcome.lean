import Verif.Lemmas.Accept
import Verif.Lemmas.Opcode
import Verif.Spec.Outcome
/-
The opcodes that Unmarshal does not decode.
-/
namespace Verif
open Spec Packet Code

theorem dispatch_other (o : OpCode) (h : ∀ p, dispatch o ≠ .ok p) (h7 : o ≠ 0x7000) :
    dispatch o = .error (if o ∈ undecoded then .notImplementedOpCode o else .invalidOpCodeDispatch o) := by
  by_cases hu : o ∈ undecoded
  · rw [if_pos hu]
    simp only [undecoded, List.mem_cons, List.not_mem_nil, or_false] at hu
    rcases hu with hu | hu | hu | hu | hu | hu | hu | hu | hu | hu | hu | hu | hu | hu | hu | hu | hu | hu | hu | hu | hu | hu <;>
      subst hu <;> rfl
  · rw [if_neg hu]
    rcases dispatch_classify o with ⟨_, hd⟩ | ⟨_, hd⟩ | ⟨_, ho, _⟩ | ⟨_, p, hd, _⟩
    · exact hd
    · exfalso
      apply hu
      have hn : o ∈ notImplemented := by
        apply Classical.byContradiction
        intro hn
        have h' {x : OpCode} {p : AnyPacket} (hx : dispatch x = .ok p) : o ≠ x := by
          rintro rfl
          exact h p hx
        rw [dispatch, if_neg (h' (x := OpCode.opPoll) rfl), if_neg (h' (x := OpCode.opPollReply) rfl),
          if_neg (h' (x := OpCode.opDiagData) rfl), if_neg (h' (x := OpCode.opCommand) rfl),
          if_neg (h' (x := OpCode.opDMX) rfl), if_neg (h' (x := OpCode.opNzs) rfl), if_neg (h' (x := OpCode.opSync) rfl),
          if_neg (h' (x := OpCode.opAddress) rfl), if_neg (show o ≠ OpCode.opInput from h7), if_neg (h' (x := OpCode.opTimeCode) rfl),
          if_neg (h' (x := OpCode.opTrigger) rfl), if_neg (h' (x := OpCode.opIPProg) rfl),
          if_neg (h' (x := OpCode.opIPProgReply) rfl), if_neg hn] at hd
        cases hd
      simp only [notImplemented, List.mem_cons, List.not_mem_nil, or_false] at hn
      rcases hn with hn | hn | hn | hn | hn | hn | hn | hn | hn | hn | hn | hn | hn | hn | hn | hn | hn | hn | hn | hn | hn | hn <;>
        subst hn <;> decide
    · exact absurd ho h7
    · exact absurd hd (h p)

end Verif
