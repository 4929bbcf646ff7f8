import Verif.Model.SegdChSet
import Verif.Spec.SegdGen

/-!
# Vocabulary for the SEG-D channel set header property
-/

namespace Sedaman.Spec

/-- Values the members can take in the C++ structure (the two `int` members non-negative). -/
structure ChSetTyped (h : ChSet) : Prop where
  scanTypeNumber : 0 ≤ h.scanTypeNumber ∧ h.scanTypeNumber < 2 ^ 31
  channelSetNumber : h.channelSetNumber < 2 ^ 16
  channelType : h.channelType < 2 ^ 8
  startTime : h.startTime < 2 ^ 32
  endTime : h.endTime < 2 ^ 32
  numberOfChannels : h.numberOfChannels < 2 ^ 32
  channelGain : h.channelGain < 2 ^ 8
  aliasFilterFreq : h.aliasFilterFreq < 2 ^ 32
  aliasFilterSlope : h.aliasFilterSlope < 2 ^ 32
  lowCutFilterFreq : h.lowCutFilterFreq < 2 ^ 32
  lowCutFilterSlope : h.lowCutFilterSlope < 2 ^ 32
  firstNotchFilter : h.firstNotchFilter < 2 ^ 32
  secondNotchFilter : h.secondNotchFilter < 2 ^ 32
  thirdNotchFilter : h.thirdNotchFilter < 2 ^ 32
  extChSetNum : h.extChSetNum < 2 ^ 16
  extHdrFlag : h.extHdrFlag < 2 ^ 8
  trcHdrExt : h.trcHdrExt < 2 ^ 8
  vertStack : h.vertStack < 2 ^ 8
  streamerNo : h.streamerNo < 2 ^ 8
  arrayForming : h.arrayForming < 2 ^ 8

/-- The fields fit the digits and bits the block has for them; times are even. -/
structure ChSetFits (h : ChSet) : Prop where
  scanTypeNumber : 0 ≤ h.scanTypeNumber ∧ h.scanTypeNumber < 100
  channelSetNumber : h.channelSetNumber < 100
  channelType : h.channelType < 10
  startTime : h.startTime < 2 ^ 17 ∧ h.startTime % 2 = 0
  endTime : h.endTime < 2 ^ 17 ∧ h.endTime % 2 = 0
  numberOfChannels : h.numberOfChannels < 10 ^ 4
  channelGain : h.channelGain < 10
  aliasFilterFreq : h.aliasFilterFreq < 10 ^ 4
  aliasFilterSlope : h.aliasFilterSlope < 10 ^ 4
  lowCutFilterFreq : h.lowCutFilterFreq < 10 ^ 4
  lowCutFilterSlope : h.lowCutFilterSlope < 10 ^ 4
  firstNotchFilter : h.firstNotchFilter < 10 ^ 4
  secondNotchFilter : h.secondNotchFilter < 10 ^ 4
  thirdNotchFilter : h.thirdNotchFilter < 10 ^ 4
  extChSetNum : h.extChSetNum < 2 ^ 16
  extHdrFlag : h.extHdrFlag < 16
  trcHdrExt : h.trcHdrExt < 16
  vertStack : h.vertStack < 2 ^ 8
  streamerNo : h.streamerNo < 2 ^ 8
  arrayForming : h.arrayForming < 2 ^ 8

/-- What a reader gets from the block for header `h`, whatever its size. The extended header flag
is read with the sign of its nibble; the number of subscans is rounded down to a power of two;
the number of samples is always reported as zero. -/
def chSetStored (h : ChSet) : ChSet :=
  { h with
    scanTypeNumber := h.scanTypeNumber % 100
    channelSetNumber := h.channelSetNumber % 100
    channelType := h.channelType % 10
    startTime := h.startTime / 2 % 2 ^ 16 * 2
    endTime := h.endTime / 2 % 2 ^ 16 * 2
    numberOfChannels := h.numberOfChannels % 10 ^ 4
    subscansPerChSet := 2 ^ (h.subscansPerChSet.toNat.log2 % 10)
    channelGain := h.channelGain % 10
    aliasFilterFreq := h.aliasFilterFreq % 10 ^ 4
    aliasFilterSlope := h.aliasFilterSlope % 10 ^ 4
    lowCutFilterFreq := h.lowCutFilterFreq % 10 ^ 4
    lowCutFilterSlope := h.lowCutFilterSlope % 10 ^ 4
    firstNotchFilter := h.firstNotchFilter % 10 ^ 4
    secondNotchFilter := h.secondNotchFilter % 10 ^ 4
    thirdNotchFilter := h.thirdNotchFilter % 10 ^ 4
    extHdrFlag := if h.extHdrFlag % 16 ≥ 8 then h.extHdrFlag % 16 + 240 else h.extHdrFlag % 16
    trcHdrExt := h.trcHdrExt % 16
    numberOfSamples := some 0 }

end Sedaman.Spec
