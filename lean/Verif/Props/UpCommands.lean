import Verif.Lemmas.MacCommands

/-!
# C09 (first half): uplink MAC commands

`Spec.encodeUp` is the specification's encoding.  The second half of C09 (every combination of pending
answers fits) is in Props/Answers.lean.
-/

namespace LDL
open LDL.Stream LDL.MacCmd

/-- The function of the code that serialises each command, and the type its size is announced under. -/
def putUp (v11 : Bool) (s : Stream) : Spec.UpCmd → Stream
  | .linkCheckReq => putLinkCheckReq v11 s
  | .linkADRAns p d c => putLinkADRAns v11 s ⟨p, d, c⟩
  | .dutyCycleAns => putDutyCycleAns v11 s
  | .rxParamSetupAns o d c => putRXParamSetupAns v11 s ⟨o, d, c⟩
  | .devStatusAns b m => putDevStatusAns v11 s ⟨b, m⟩
  | .newChannelAns d f => putNewChannelAns v11 s ⟨d, f⟩
  | .rxTimingSetupAns => putRXTimingSetupAns v11 s
  | .txParamSetupAns => putTXParamSetupAns v11 s
  | .dlChannelAns u f => putDLChannelAns v11 s ⟨u, f⟩
  | .rekeyInd v => putRekeyInd v11 s v
  | .adrParamSetupAns => putADRParamSetupAns v11 s
  | .deviceTimeReq => putDeviceTimeReq v11 s
  | .rejoinParamSetupAns t => putRejoinParamSetupAns v11 s t

/-- The type under which the code announces the size of each command. -/
def upType : Spec.UpCmd → CmdType
  | .linkCheckReq => .linkCheck
  | .linkADRAns .. => .linkADR
  | .dutyCycleAns => .dutyCycle
  | .rxParamSetupAns .. => .rxParamSetup
  | .devStatusAns .. => .devStatus
  | .newChannelAns .. => .newChannel
  | .rxTimingSetupAns => .rxTimingSetup
  | .txParamSetupAns => .txParamSetup
  | .dlChannelAns .. => .dlChannel
  | .rekeyInd _ => .rekey
  | .adrParamSetupAns => .adrParamSetup
  | .deviceTimeReq => .deviceTime
  | .rejoinParamSetupAns _ => .rejoinParamSetup

theorem margin_bits (m : Int) : (m % 256).toNat &&& 0x3f = (m % 64).toNat := by
  rw [and_3f]; omega

/-- The code writes the specification's bytes, in one or more chunks. -/
theorem putUp_eq (v11 : Bool) (s : Stream) (c : Spec.UpCmd) (h : Spec.upAvailable v11 c) :
    ∃ cs : List Bytes, putUp v11 s c = s.writes cs ∧ cs.flatten = Spec.encodeUp c := by
  cases c <;> simp only [Spec.upAvailable] at h <;> (try subst h)
  case linkCheckReq => exact ⟨[[2]], by cases v11 <;> rfl, rfl⟩
  case linkADRAns p d c => exact ⟨[[3], [UInt8.ofNat (Spec.ackBits p d c)]],
    by cases v11 <;> cases p <;> cases d <;> cases c <;> rfl, rfl⟩
  case dutyCycleAns => exact ⟨[[4]], by cases v11 <;> rfl, rfl⟩
  case rxParamSetupAns p d c => exact ⟨[[5], [UInt8.ofNat (Spec.ackBits p d c)]],
    by cases v11 <;> cases p <;> cases d <;> cases c <;> rfl, rfl⟩
  case devStatusAns b m =>
    refine ⟨[[6], [UInt8.ofNat b], [UInt8.ofNat (m % 64).toNat]], ?_, rfl⟩
    cases v11 <;> simp only [putUp, putDevStatusAns, margin_bits] <;> rfl
  case newChannelAns d f => exact ⟨[[7], [UInt8.ofNat (Spec.ackBits false d f)]],
    by cases v11 <;> cases d <;> cases f <;> rfl, rfl⟩
  case rxTimingSetupAns => exact ⟨[[8]], by cases v11 <;> rfl, rfl⟩
  case txParamSetupAns => exact ⟨[[9]], by cases v11 <;> rfl, rfl⟩
  case dlChannelAns d f => exact ⟨[[10], [UInt8.ofNat (Spec.ackBits false d f)]],
    by cases v11 <;> cases d <;> cases f <;> rfl, rfl⟩
  case rekeyInd v => exact ⟨[[11], [UInt8.ofNat v]], rfl, rfl⟩
  case adrParamSetupAns => exact ⟨[[12]], rfl, rfl⟩
  case deviceTimeReq => exact ⟨[[13]], by cases v11 <;> rfl, rfl⟩
  case rejoinParamSetupAns t => exact ⟨[[15], [UInt8.ofNat t.toNat]], by cases t <;> rfl, rfl⟩

/-- **C09**: the announced size is the number of bytes of the command. -/
theorem c09_announced_size (c : Spec.UpCmd) :
    sizeofCommandUp (upType c) = (Spec.encodeUp c).length := by
  cases c <;> rfl

/-- **C09**: with room, each command writes exactly its bytes (CID first) at the cursor and nothing else;
without room the stream reports an error. -/
theorem c09_command_bytes (v11 : Bool) (s : Stream) (c : Spec.UpCmd) (h : Spec.upAvailable v11 c)
    (hw : s.writable = true) (he : s.error = false) (hp : s.pos ≤ s.size)
    (hm : s.size ≤ s.mem.length) (h8 : s.size ≤ 255) :
    (s.pos + (Spec.encodeUp c).length ≤ s.size →
      putUp v11 s c = { s with
        mem := s.mem.take s.pos ++ Spec.encodeUp c ++ s.mem.drop (s.pos + (Spec.encodeUp c).length)
        pos := s.pos + (Spec.encodeUp c).length }) ∧
    (s.size < s.pos + (Spec.encodeUp c).length → (putUp v11 s c).error = true) := by
  obtain ⟨cs, e, f⟩ := putUp_eq v11 s c h
  rw [e, ← f]
  exact ⟨fun hs => writes_ok cs hw he hs hm h8, fun hs => writes_fail cs hw hs hp hm h8⟩

/-- A device status answer with a negative margin, in a stream that already holds two bytes. -/
example : (putUp false ((Stream.init [7, 1, 0, 0, 0, 0] 6).seekSet 2).2
    (.devStatusAns 200 (-3))).mem = [7, 1, 6, 200, 61, 0] := by decide

end LDL
