import Verif.Model.Timer

/-!
# Model of src/ldl_mac.c: channel masks, channel configuration, channel selection
-/

namespace LDL

/-- `maskChannel` (src/ldl_mac.c:2844-2858); `max` is 9. -/
def maskChannel (mask : Nat → Nat) (region : Region) (ch : Nat) : Nat → Nat :=
  if ch < region.numChannels ∧ ch < 72 then upd mask (ch / 8) (mask (ch / 8) ||| (1 <<< (ch % 8)))
  else mask

/-- `unmaskChannel` (src/ldl_mac.c:2860-2874). -/
def unmaskChannel (mask : Nat → Nat) (region : Region) (ch : Nat) : Nat → Nat :=
  if ch < region.numChannels ∧ ch < 72 then
    upd mask (ch / 8) (mask (ch / 8) &&& (255 ^^^ (1 <<< (ch % 8))))
  else mask

/-- The common result of `maskChannel` and `unmaskChannel` (src/ldl_mac.c:2844-2874). -/
def maskable (region : Region) (ch : Nat) : Bool := decide (ch < region.numChannels ∧ ch < 72)

/-- `unmaskAllChannels` (src/ldl_mac.c:2876-2879). -/
def unmaskAll : Nat → Nat := fun _ => 0

/-- `channelIsMasked` (src/ldl_mac.c:2881-2894). -/
def channelIsMasked (mask : Nat → Nat) (region : Region) (ch : Nat) : Bool :=
  if ch < region.numChannels ∧ ch < 72 then decide (mask (ch / 8) &&& (1 <<< (ch % 8)) > 0)
  else false

/-- `allChannelsAreMasked` (src/ldl_mac.c:2896-2911). -/
def allChannelsAreMasked (mask : Nat → Nat) : Bool :=
  [0, 1, 2, 3, 4, 5, 6, 7, 8].all fun i => mask i == 0xff

/-- `getChannel` (src/ldl_mac.c:2782-2811). -/
def getChannel (s : Session) (ch : Nat) : Option Region.Chan :=
  if s.region.isDynamic then
    if ch < s.region.numChannels ∧ ch < 16 then
      let c := s.chConfig ch
      some ⟨u32 ((c >>> 8) * 100), (c >>> 4) &&& 0xf, c &&& 0xf⟩
    else none
  else s.region.getChannel ch

/-- `setChannel` (src/ldl_mac.c:2813-2842) and so `LDL_MAC_addChannel` (src/ldl_mac.c:761-768). -/
def setChannel (s : Session) (ch freq minRate maxRate : Nat) : Bool × Session :=
  if ch < s.region.numChannels ∧ ch < 16 then
    if freq = 0 then (true, { s with chConfig := upd s.chConfig ch 0 })
    else if s.region.validateFreq freq then
      let c := u32 ((freq / 100) <<< 8) ||| (minRate <<< 4) ||| (maxRate &&& 0xf)
      (true, { s with chConfig := upd s.chConfig ch c })
    else (false, s)
  else (false, s)

/-- `rateSettingIsValid` (src/ldl_mac.c:2913-2928). -/
def rateSettingIsValid (region : Region) (rate : Nat) : Bool :=
  (List.range region.numChannels).any fun i => region.validateRate i rate rate

/-- `requiredRate` (src/ldl_mac.c:2541-2559). -/
def requiredRate (desired min max : Nat) : Nat :=
  if desired < min then min else if desired > max then max else desired

/-- `uplinkDwell` (src/ldl_mac.c:2562-2565). -/
def uplinkDwell (txParamSetup : Nat) : Bool := decide (txParamSetup &&& 0x10 > 0)

/-- The band of a channel that is defined and not masked (the common nest of tests in
src/ldl_mac.c:2685-2702 and 2714-2723). -/
def usableBand (s : Session) (ch : Nat) : Option Nat :=
  if channelIsMasked s.chMask s.region ch then none
  else
    match getChannel s ch with
    | some c => if c.freq > 0 then s.region.getBand c.freq else none
    | none => none

/-- `isAvailable` (src/ldl_mac.c:2677-2705). -/
def isAvailable (m : Mac) (ch limit : Nat) : Bool :=
  match usableBand m.ctx ch with
  | some b => decide (m.band b ≤ limit)
  | none => false

/-- `timeUntilAvailable` (src/ldl_mac.c:2707-2732). -/
def timeUntilAvailable (m : Mac) (ch : Nat) : Nat :=
  match usableBand m.ctx ch with
  | some b => if m.band b > m.band GLOBAL then m.band b else m.band GLOBAL
  | none => UINT32_MAX

/-- `timeUntilNextChannel` (src/ldl_mac.c:3186-3200). -/
def timeUntilNextChannel (m : Mac) : Nat :=
  (List.range m.ctx.region.numChannels).foldl
    (fun min i => if min > timeUntilAvailable m i then timeUntilAvailable m i else min) UINT32_MAX

/-- The channels counted by the first loop of `selectChannel` (src/ldl_mac.c:2619-2631): the local bit
mask holds exactly the available channels, in order of index. -/
def availableChannels (m : Mac) (limit : Nat) : List Nat :=
  (List.range m.ctx.region.numChannels).filter fun i => isAvailable m i limit

/-- `selectChannel` (src/ldl_mac.c:2603-2675): frequency, index and rate of the chosen channel.  The
second loop returns the channel with number `selection` among those counted, leaving out `except` (the
channel used last, unless it is the only one). -/
def selectChannel (m : Mac) (draw desired limit : Nat) : Option (Nat × Nat × Nat) :=
  let avail := availableChannels m limit
  if avail.length > 0 then
    let skip := decide (m.tx.chIndex ∈ avail) && decide (avail.length ≠ 1)
    let available := if skip then avail.length - 1 else avail.length
    let selection := u8 (draw % available)
    let cands := if skip then avail.filter (fun i => i != m.tx.chIndex) else avail
    match cands[selection]? with
    | some i =>
      match getChannel m.ctx i with
      | some c => some (c.freq, i, requiredRate desired c.minRate c.maxRate)
      | none => none
    | none => none
  else none

/-- `LDL_Region_getDefaultChannels` (src/ldl_region.c:415-447). -/
def getDefaultChannels (s : Session) : Session :=
  match s.region with
  | .eu868 =>
    let s := (setChannel s 0 868100000 0 5).2
    let s := (setChannel s 1 868300000 0 5).2
    (setChannel s 2 868500000 0 5).2
  | .eu433 =>
    let s := (setChannel s 0 433175000 0 5).2
    let s := (setChannel s 1 433375000 0 5).2
    (setChannel s 2 433575000 0 5).2
  | _ => s

/-- Set or clear the mask bit of one channel from a bit of a 16 bit mask; a set bit enables the channel
(src/ldl_mac.c:2131-2138, 2178-2185, src/ldl_region.c:535-542). -/
def applyMaskBit (region : Region) (bits base : Nat) (mask : Nat → Nat) (i : Nat) : Nat → Nat :=
  if bits &&& (1 <<< i) > 0 then unmaskChannel mask region (base + i)
  else maskChannel mask region (base + i)

/-- The loop over the sixteen bits of a channel mask (src/ldl_mac.c:2129-2139, 2176-2186,
src/ldl_region.c:533-543). -/
def applyMask16 (region : Region) (bits base : Nat) (mask : Nat → Nat) : Nat → Nat :=
  (List.range 16).foldl (applyMaskBit region bits base) mask

/-- `LDL_Region_processCFList` (src/ldl_region.c:475-550). -/
def processCFList (s : Session) (cfList : Bytes) : Session :=
  if cfList.length = 16 then
    match s.region with
    | .eu868 | .eu433 =>
      if cfList.getD 15 0 = 0 then
        (List.range 5).foldl
          (fun s k => (setChannel s (3 + k) (Region.unpackCFListFreq cfList (3 * k)) 0 5).2) s
      else s
    | .us915 | .au915 =>
      if cfList.getD 15 0 = 1 then
        let step := fun mask i =>
          applyMask16 s.region (Region.unpackCFListMask cfList (2 * i)) (i * 16) mask
        { s with chMask := (List.range 5).foldl step s.chMask }
      else s
  else s

end LDL
