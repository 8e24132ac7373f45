import Verif.Spec.Registers
/-
The declared constants of packet/code, each with the name it is declared by.
-/
namespace Verif.Spec
open Code

/-- The operation codes. OpDMX is a synonym of OpOutput. -/
def declaredOps : List (UInt16 × String) := [
  (OpCode.opPoll, "OpPoll"), (OpCode.opPollReply, "OpPollReply"), (OpCode.opDiagData, "OpDiagData"),
  (OpCode.opCommand, "OpCommand"), (OpCode.opOutput, "OpOutput"), (OpCode.opNzs, "OpNzs"),
  (OpCode.opSync, "OpSync"), (OpCode.opAddress, "OpAddress"), (OpCode.opInput, "OpInput"),
  (OpCode.opTodRequest, "OpTodRequest"), (OpCode.opTodData, "OpTodData"),
  (OpCode.opTodControl, "OpTodControl"), (OpCode.opRdm, "OpRdm"), (OpCode.opRdmSub, "OpRdmSub"),
  (OpCode.opMedia, "OpMedia"), (OpCode.opMediaPatch, "OpMediaPatch"),
  (OpCode.opMediaControl, "OpMediaControl"), (OpCode.opMediaContrlReply, "OpMediaContrlReply"),
  (OpCode.opTimeCode, "OpTimeCode"), (OpCode.opTimeSync, "OpTimeSync"), (OpCode.opTrigger, "OpTrigger"),
  (OpCode.opDirectory, "OpDirectory"), (OpCode.opDirectoryReply, "OpDirectoryReply"),
  (OpCode.opVideoSetup, "OpVideoSetup"), (OpCode.opVideoPalette, "OpVideoPalette"),
  (OpCode.opVideoData, "OpVideoData"), (OpCode.opMacMaster, "OpMacMaster"), (OpCode.opMacSlave, "OpMacSlave"),
  (OpCode.opFirmwareMaster, "OpFirmwareMaster"), (OpCode.opFirmwareReply, "OpFirmwareReply"),
  (OpCode.opFileTnMaster, "OpFileTnMaster"), (OpCode.opFileFnMaster, "OpFileFnMaster"),
  (OpCode.opFileFnReply, "OpFileFnReply"), (OpCode.opIPProg, "OpIPProg"),
  (OpCode.opIPProgReply, "OpIPProgReply")]

/-- The style codes; the prefix St is not printed. -/
def declaredStyles : List (UInt8 × String) := [
  (StyleCode.stNode, "Node"), (StyleCode.stController, "Controller"), (StyleCode.stMedia, "Media"),
  (StyleCode.stRoute, "Route"), (StyleCode.stBackup, "Backup"), (StyleCode.stConfig, "Config"),
  (StyleCode.stVisual, "Visual")]

/-- The report codes. -/
def declaredReports : List (UInt8 × String) := [
  (NodeReportCode.rcDebug, "RcDebug"), (NodeReportCode.rcPowerOk, "RcPowerOk"),
  (NodeReportCode.rcPowerFail, "RcPowerFail"), (NodeReportCode.rcSocketWr1, "RcSocketWr1"),
  (NodeReportCode.rcParseFail, "RcParseFail"), (NodeReportCode.rcUDPFail, "RcUDPFail"),
  (NodeReportCode.rcShNameOk, "RcShNameOk"), (NodeReportCode.rcLoNameOk, "RcLoNameOk"),
  (NodeReportCode.rcDmxError, "RcDmxError"), (NodeReportCode.rcDmxUDPFull, "RcDmxUDPFull"),
  (NodeReportCode.rcDmxRxFull, "RcDmxRxFull"), (NodeReportCode.rcSwitchErr, "RcSwitchErr"),
  (NodeReportCode.rcConfigErr, "RcConfigErr"), (NodeReportCode.rcDmxShort, "RcDmxShort"),
  (NodeReportCode.rcFirmwareFail, "RcFirmwareFail"), (NodeReportCode.rcUserFail, "RcUserFail"),
  (NodeReportCode.rcFactoryRes, "RcFactoryRes")]

/-- The priority codes. -/
def declaredPriorities : List (UInt8 × String) := [
  (PriorityCode.dpAll, "DpAll"), (PriorityCode.dpLow, "DpLow"), (PriorityCode.dpMed, "DpMed"),
  (PriorityCode.dpHigh, "DpHigh"), (PriorityCode.dpCritical, "DpCritical"),
  (PriorityCode.dpVolatile, "DpVolatile")]

end Verif.Spec
