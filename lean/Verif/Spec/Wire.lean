import Verif.Spec.Bytes
import Verif.Model.Packet
/-
Independent description of the Art-Net wire formats, written with absolute offsets and literal byte
lists (Art-Net 4 specification); the model's codec is not used, only its packet records.
-/
namespace Verif.Spec
open Packet

/-! ### Received layout: field := bytes at absolute offset -/

/-- Header of an accepted datagram. -/
def hdrOf (b : Bytes) : Header := ⟨arrAt b 0 8, opOf b, arrAt b 10 2⟩

def pollOf (b : Bytes) : ArtPoll :=
  { hdr := hdrOf b, talkToMe := byteAt b 12, priority := byteAt b 13 }

/-- The port is given separately because receivers normalise it. -/
def pollReplyOf (b : Bytes) (port : UInt16) : ArtPollReply :=
  { id := arrAt b 0 8, opCode := opOf b, ipAddress := arrAt b 10 4, port := port,
    versionInfo := be16At b 16, netSwitch := byteAt b 18, subSwitch := byteAt b 19,
    oem := be16At b 20, ubeaVersion := byteAt b 22, status1 := byteAt b 23,
    estaManufacturer := arrAt b 24 2, shortName := arrAt b 26 18, longName := arrAt b 44 64,
    nodeReport := arrAt b 108 64, numPorts := be16At b 172, portTypes := arrAt b 174 4,
    goodInput := arrAt b 178 4, goodOutput := arrAt b 182 4, swIn := arrAt b 186 4,
    swOut := arrAt b 190 4, swVideo := byteAt b 194, swMacro := byteAt b 195,
    swRemote := byteAt b 196, style := byteAt b 200, macaddress := arrAt b 201 6,
    bindIP := arrAt b 207 4, bindIndex := byteAt b 211, status2 := byteAt b 212 }

def diagDataOf (b : Bytes) : ArtDiagData :=
  { hdr := hdrOf b, priority := byteAt b 13, length := be16At b 16, data := arrAt b 18 512 }

def commandOf (b : Bytes) : ArtCommand :=
  { hdr := hdrOf b, estaManufacturer := arrAt b 12 2, length := be16At b 14, data := arrAt b 16 512 }

/-- ArtDmx carries `Length` channels; the remaining channels are zero. -/
def dmxOf (b : Bytes) : ArtDMX :=
  { hdr := hdrOf b, sequence := byteAt b 12, physical := byteAt b 13, subUni := byteAt b 14,
    net := byteAt b 15, length := be16At b 16,
    data := ⟨List.ofFn fun i : Fin 512 =>
      if i.val < (be16At b 16).toNat then byteAt b (18 + i) else 0, List.length_ofFn⟩ }

def nzsOf (b : Bytes) : ArtNzs :=
  { hdr := hdrOf b, sequence := byteAt b 12, startCode := byteAt b 13, subUni := byteAt b 14,
    net := byteAt b 15, length := be16At b 16, data := arrAt b 18 512 }

def syncOf (b : Bytes) : ArtSync := { hdr := hdrOf b }

def addressOf (b : Bytes) : ArtAddress :=
  { hdr := hdrOf b, netSwitch := byteAt b 12, bindIndex := byteAt b 13, shortName := arrAt b 14 18,
    longName := arrAt b 32 64, swIn := arrAt b 96 4, swOut := arrAt b 100 4,
    subSwitch := byteAt b 104, swVideo := byteAt b 105, command := byteAt b 106 }

def timeCodeOf (b : Bytes) : ArtTimeCode :=
  { hdr := hdrOf b, frames := byteAt b 14, seconds := byteAt b 15, minutes := byteAt b 16,
    hours := byteAt b 17, type := byteAt b 18 }

def triggerOf (b : Bytes) : ArtTrigger :=
  { hdr := hdrOf b, oem := be16At b 14, key := byteAt b 16, subKey := byteAt b 17,
    data := arrAt b 18 512 }

def ipProgOf (b : Bytes) : ArtIPProg :=
  { hdr := hdrOf b, command := byteAt b 14, progIP := arrAt b 16 4, progSubNet := arrAt b 20 4,
    progPort := arrAt b 24 2 }

def ipProgReplyOf (b : Bytes) : ArtIPProgReply :=
  { hdr := hdrOf b, progIP := arrAt b 16 4, progSubNet := arrAt b 20 4, progPort := arrAt b 24 2,
    status := byteAt b 26 }

/-! ### Transmitted layout: literal byte lists -/

/-- The 12 bytes that start every packet but ArtPollReply: magic, opcode low byte first, version 14. -/
def header (op : UInt16) : Bytes := magic ++ le16 op ++ [0, 14]

def pollImage (p : ArtPoll) : Bytes := header 0x2000 ++ [p.talkToMe, p.priority]

def pollReplyImage (p : ArtPollReply) : Bytes :=
  magic ++ [0x00, 0x21] ++ p.ipAddress.val ++ le16 p.port ++ be16 p.versionInfo ++
  [p.netSwitch, p.subSwitch] ++ be16 p.oem ++ [p.ubeaVersion, p.status1] ++
  p.estaManufacturer.val ++ p.shortName.val ++ p.longName.val ++ p.nodeReport.val ++
  be16 p.numPorts ++ p.portTypes.val ++ p.goodInput.val ++ p.goodOutput.val ++ p.swIn.val ++
  p.swOut.val ++ [p.swVideo, p.swMacro, p.swRemote] ++ zeros 3 ++ [p.style] ++ p.macaddress.val ++
  p.bindIP.val ++ [p.bindIndex, p.status2] ++ zeros 26

def diagDataImage (p : ArtDiagData) : Bytes :=
  header 0x2300 ++ [0, p.priority, 0, 0] ++ be16 p.length ++ p.data.val

def commandImage (p : ArtCommand) : Bytes :=
  header 0x2400 ++ [0xff, 0xff] ++ be16 p.length ++ p.data.val

def dmxImage (p : ArtDMX) : Bytes :=
  magic ++ [0x00, 0x50, 0x00, 0x0e, p.sequence, p.physical, p.subUni, p.net, 0x02, 0x00] ++ p.data.val

def nzsImage (p : ArtNzs) : Bytes :=
  header 0x5100 ++ [p.sequence, p.startCode, p.subUni, p.net] ++ be16 p.length ++ p.data.val

def syncImage (_p : ArtSync) : Bytes := header 0x5200 ++ [0, 0]

def addressImage (p : ArtAddress) : Bytes :=
  header 0x6000 ++ [p.netSwitch, p.bindIndex] ++ p.shortName.val ++ p.longName.val ++ p.swIn.val ++
  p.swOut.val ++ [p.subSwitch, p.swVideo, p.command]

def timeCodeImage (p : ArtTimeCode) : Bytes :=
  header 0x9700 ++ [0, 0, p.frames, p.seconds, p.minutes, p.hours, p.type]

def triggerImage (p : ArtTrigger) : Bytes :=
  header 0x9900 ++ [0, 0] ++ be16 p.oem ++ [p.key, p.subKey] ++ p.data.val

def ipProgImage (p : ArtIPProg) : Bytes :=
  header 0xf800 ++ [0, 0, p.command, 0] ++ p.progIP.val ++ p.progSubNet.val ++ p.progPort.val ++
  zeros 8

def ipProgReplyImage (p : ArtIPProgReply) : Bytes :=
  header 0xf900 ++ [0, 0, 0, 0] ++ p.progIP.val ++ p.progSubNet.val ++ p.progPort.val ++
  [p.status] ++ zeros 7

end Verif.Spec
