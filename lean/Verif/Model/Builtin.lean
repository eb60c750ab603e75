import Verif.Model.MetaDict
/-!
# The definitions that come with the library

Generated from the text of `/repo/src/aaf2/metadict.py` (302-307, `root_classes`), `/repo/src/aaf2/model/classdefs.py` and
`/repo/src/aaf2/model/ext/classdefs.py`, in their order.  A name is the number whose digits to the base 256 are its
(ASCII) characters; an identifier is the number that its hexadecimal text says.
-/
namespace Verif.Meta

/-- Part of `rootClasses` (metadict.py:302-307). -/
def rootClasses0 : List CArgs := [
  ⟨0x526f6f74, 0xb3b398a51c9011d48053080036210804, none, true, [
    ⟨0x0d01030101020100060e2b3401010102, 0x486561646572, some 0x0002, 0x0502280000000000060e2b3401040101, false, false⟩ /- Header -/,
    ⟨0x0d01030101010100060e2b3401010102, 0x4d65746144696374696f6e617279, some 0x0001, 0x0502270000000000060e2b3401040101, false, false⟩ /- MetaDictionary -/]⟩ /- Root -/]

/-- metadict.py:302-307 -/
def rootClasses : List CArgs := rootClasses0

/-- Part of `baseClasses` (model/classdefs.py, `classdefs`). -/
def baseClasses0 : List CArgs := [
  ⟨0x496e7465726368616e67654f626a656374, 0x0d01010101010100060e2b3402060101, none, false, [
    ⟨0x0601010401010000060e2b3401010102, 0x4f626a436c617373, some 0x0101, 0x0501010000000000060e2b3401040101, false, false⟩ /- ObjClass -/,
    ⟨0x0520070108000000060e2b3401010102, 0x47656e65726174696f6e, some 0x0102, 0x0103010000000000060e2b3401040101, true, false⟩ /- Generation -/]⟩ /- InterchangeObject -/,
  ⟨0x436f6d706f6e656e74, 0x0d01010101010200060e2b3402060101, some 0x0d01010101010100060e2b3402060101, false, [
    ⟨0x0407010000000000060e2b3401010102, 0x44617461446566696e6974696f6e, some 0x0201, 0x0501030000000000060e2b3401040101, false, false⟩ /- DataDefinition -/,
    ⟨0x0702020101030000060e2b3401010102, 0x4c656e677468, some 0x0202, 0x0101200200000000060e2b3401040101, true, false⟩ /- Length -/,
    ⟨0x0301021004000000060e2b3401010102, 0x4b4c5644617461, some 0x0203, 0x0506090000000000060e2b3401040101, true, false⟩ /- KLVData -/,
    ⟨0x0302010216000000060e2b3401010107, 0x55736572436f6d6d656e7473, some 0x0204, 0x0506080000000000060e2b3401040101, true, false⟩ /- UserComments -/,
    ⟨0x0301021008000000060e2b3401010107, 0x41747472696275746573, some 0x0205, 0x0506080000000000060e2b3401040101, true, false⟩ /- Attributes -/]⟩ /- Component -/,
  ⟨0x5365676d656e74, 0x0d01010101010300060e2b3402060101, some 0x0d01010101010200060e2b3402060101, false, []⟩ /- Segment -/,
  ⟨0x45646765436f6465, 0x0d01010101010400060e2b3402060101, some 0x0d01010101010300060e2b3402060101, true, [
    ⟨0x0104090100000000060e2b3401010102, 0x5374617274, some 0x0401, 0x0101200100000000060e2b3401040101, false, false⟩ /- Start -/,
    ⟨0x0410010301090000060e2b3401010102, 0x46696c6d4b696e64, some 0x0402, 0x0201010d00000000060e2b3401040101, false, false⟩ /- FilmKind -/,
    ⟨0x0410010301020000060e2b3401010101, 0x436f6465466f726d6174, some 0x0403, 0x0201010c00000000060e2b3401040101, false, false⟩ /- CodeFormat -/,
    ⟨0x0103020102000000060e2b3401010102, 0x486561646572, some 0x0404, 0x0410010000000000060e2b3401040101, true, false⟩ /- Header -/]⟩ /- EdgeCode -/,
  ⟨0x457373656e636547726f7570, 0x0d01010101010500060e2b3402060101, some 0x0d01010101010300060e2b3402060101, true, [
    ⟨0x0601010406010000060e2b3401010102, 0x43686f69636573, some 0x0501, 0x0506070000000000060e2b3401040101, false, false⟩ /- Choices -/,
    ⟨0x0601010402080000060e2b3401010102, 0x5374696c6c4672616d65, some 0x0502, 0x0502080000000000060e2b3401040101, true, false⟩ /- StillFrame -/]⟩ /- EssenceGroup -/,
  ⟨0x4576656e74, 0x0d01010101010600060e2b3402060101, some 0x0d01010101010300060e2b3402060101, false, [
    ⟨0x0702010303030000060e2b3401010102, 0x506f736974696f6e, some 0x0601, 0x0101200100000000060e2b3401040101, false, false⟩ /- Position -/,
    ⟨0x0530040401000000060e2b3401010102, 0x436f6d6d656e74, some 0x0602, 0x0110020000000000060e2b3401040101, true, false⟩ /- Comment -/]⟩ /- Event -/,
  ⟨0x47504954726967676572, 0x0d01010101010700060e2b3402060101, some 0x0d01010101010600060e2b3402060101, true, [
    ⟨0x0530040100000000060e2b3401010101, 0x4163746976655374617465, some 0x0801, 0x0104010000000000060e2b3401040101, false, false⟩ /- ActiveState -/]⟩ /- GPITrigger -/,
  ⟨0x436f6d6d656e744d61726b6572, 0x0d01010101010800060e2b3402060101, some 0x0d01010101010600060e2b3402060101, true, [
    ⟨0x06010104020a0000060e2b3401010102, 0x416e6e6f746174696f6e, some 0x0901, 0x0502080000000000060e2b3401040101, true, false⟩ /- Annotation -/]⟩ /- CommentMarker -/,
  ⟨0x46696c6c6572, 0x0d01010101010900060e2b3402060101, some 0x0d01010101010300060e2b3402060101, true, []⟩ /- Filler -/,
  ⟨0x4f7065726174696f6e47726f7570, 0x0d01010101010a00060e2b3402060101, some 0x0d01010101010300060e2b3402060101, true, [
    ⟨0x0530050600000000060e2b3401010102, 0x4f7065726174696f6e, some 0x0b01, 0x0501070000000000060e2b3401040101, false, false⟩ /- Operation -/,
    ⟨0x0601010406020000060e2b3401010102, 0x496e7075745365676d656e7473, some 0x0b02, 0x0506060000000000060e2b3401040101, true, false⟩ /- InputSegments -/,
    ⟨0x06010104060a0000060e2b3401010102, 0x506172616d6574657273, some 0x0b03, 0x05060a0000000000060e2b3401040101, true, false⟩ /- Parameters -/,
    ⟨0x0530050c00000000060e2b3401010102, 0x4279706173734f76657272696465, some 0x0b04, 0x0101030000000000060e2b3401040101, true, false⟩ /- BypassOverride -/,
    ⟨0x0601010402060000060e2b3401010102, 0x52656e646572696e67, some 0x0b05, 0x0502080000000000060e2b3401040101, true, false⟩ /- Rendering -/]⟩ /- OperationGroup -/,
  ⟨0x4e657374656453636f7065, 0x0d01010101010b00060e2b3402060101, some 0x0d01010101010300060e2b3402060101, true, [
    ⟨0x0601010406070000060e2b3401010102, 0x536c6f7473, some 0x0c01, 0x0506060000000000060e2b3401040101, false, false⟩ /- Slots -/]⟩ /- NestedScope -/,
  ⟨0x50756c6c646f776e, 0x0d01010101010c00060e2b3402060101, some 0x0d01010101010300060e2b3402060101, true, [
    ⟨0x0601010402070000060e2b3401010102, 0x496e7075745365676d656e74, some 0x0d01, 0x0502060000000000060e2b3401040101, false, false⟩ /- InputSegment -/,
    ⟨0x0540100102000000060e2b3401010102, 0x50756c6c646f776e4b696e64, some 0x0d02, 0x0201010b00000000060e2b3401040101, false, false⟩ /- PulldownKind -/,
    ⟨0x0540100101000000060e2b3401010102, 0x50756c6c646f776e446972656374696f6e, some 0x0d03, 0x0201010a00000000060e2b3401040101, false, false⟩ /- PulldownDirection -/,
    ⟨0x0540100103000000060e2b3401010102, 0x50686173654672616d65, some 0x0d04, 0x0101230000000000060e2b3401040101, false, false⟩ /- PhaseFrame -/]⟩ /- Pulldown -/]

/-- Part of `baseClasses` (model/classdefs.py, `classdefs`). -/
def baseClasses1 : List CArgs := [
  ⟨0x53636f70655265666572656e6365, 0x0d01010101010d00060e2b3402060101, some 0x0d01010101010300060e2b3402060101, true, [
    ⟨0x0601010303000000060e2b3401010102, 0x52656c617469766553636f7065, some 0x0e01, 0x0101030000000000060e2b3401040101, false, false⟩ /- RelativeScope -/,
    ⟨0x0601010304000000060e2b3401010102, 0x52656c6174697665536c6f74, some 0x0e02, 0x0101030000000000060e2b3401040101, false, false⟩ /- RelativeSlot -/]⟩ /- ScopeReference -/,
  ⟨0x53656c6563746f72, 0x0d01010101010e00060e2b3402060101, some 0x0d01010101010300060e2b3402060101, true, [
    ⟨0x0601010402090000060e2b3401010102, 0x53656c6563746564, some 0x0f01, 0x0502060000000000060e2b3401040101, false, false⟩ /- Selected -/,
    ⟨0x0601010406080000060e2b3401010102, 0x416c7465726e61746573, some 0x0f02, 0x0506060000000000060e2b3401040101, true, false⟩ /- Alternates -/]⟩ /- Selector -/,
  ⟨0x53657175656e6365, 0x0d01010101010f00060e2b3402060101, some 0x0d01010101010300060e2b3402060101, true, [
    ⟨0x0601010406090000060e2b3401010102, 0x436f6d706f6e656e7473, some 0x1001, 0x0506010000000000060e2b3401040101, false, false⟩ /- Components -/]⟩ /- Sequence -/,
  ⟨0x536f757263655265666572656e6365, 0x0d01010101011000060e2b3402060101, some 0x0d01010101010300060e2b3402060101, false, [
    ⟨0x0601010301000000060e2b3401010102, 0x536f757263654944, some 0x1101, 0x0103020000000000060e2b3401040101, true, false⟩ /- SourceID -/,
    ⟨0x0601010302000000060e2b3401010102, 0x536f757263654d6f62536c6f744944, some 0x1102, 0x0101030000000000060e2b3401040101, false, false⟩ /- SourceMobSlotID -/,
    ⟨0x0601010307000000060e2b3401010107, 0x4368616e6e656c494473, some 0x1103, 0x0401090000000000060e2b3401040101, true, false⟩ /- ChannelIDs -/,
    ⟨0x0601010308000000060e2b3401010108, 0x4d6f6e6f536f75726365536c6f74494473, some 0x1104, 0x0401090000000000060e2b3401040101, true, false⟩ /- MonoSourceSlotIDs -/]⟩ /- SourceReference -/,
  ⟨0x536f75726365436c6970, 0x0d01010101011100060e2b3402060101, some 0x0d01010101011000060e2b3402060101, true, [
    ⟨0x0702010301040000060e2b3401010102, 0x537461727454696d65, some 0x1201, 0x0101200100000000060e2b3401040101, true, false⟩ /- StartTime -/,
    ⟨0x0702020101050200060e2b3401010102, 0x46616465496e4c656e677468, some 0x1202, 0x0101200200000000060e2b3401040101, true, false⟩ /- FadeInLength -/,
    ⟨0x0530050100000000060e2b3401010101, 0x46616465496e54797065, some 0x1203, 0x0201010700000000060e2b3401040101, true, false⟩ /- FadeInType -/,
    ⟨0x0702020101050300060e2b3401010102, 0x466164654f75744c656e677468, some 0x1204, 0x0101200200000000060e2b3401040101, true, false⟩ /- FadeOutLength -/,
    ⟨0x0530050200000000060e2b3401010101, 0x466164654f757454797065, some 0x1205, 0x0201010700000000060e2b3401040101, true, false⟩ /- FadeOutType -/]⟩ /- SourceClip -/,
  ⟨0x54657874436c6970, 0x0d01010101011200060e2b3402060101, some 0x0d01010101011000060e2b3402060101, false, []⟩ /- TextClip -/,
  ⟨0x48544d4c436c6970, 0x0d01010101011300060e2b3402060101, some 0x0d01010101011200060e2b3402060101, true, [
    ⟨0x0530060101000000060e2b3401010102, 0x426567696e416e63686f72, some 0x1401, 0x0110020000000000060e2b3401040101, true, false⟩ /- BeginAnchor -/,
    ⟨0x0530060201000000060e2b3401010102, 0x456e64416e63686f72, some 0x1402, 0x0110020000000000060e2b3401040101, true, false⟩ /- EndAnchor -/]⟩ /- HTMLClip -/,
  ⟨0x54696d65636f6465, 0x0d01010101011400060e2b3402060101, some 0x0d01010101010300060e2b3402060101, true, [
    ⟨0x0702010301050000060e2b3401010102, 0x5374617274, some 0x1501, 0x0101200100000000060e2b3401040101, false, false⟩ /- Start -/,
    ⟨0x0404010102060000060e2b3401010102, 0x465053, some 0x1502, 0x0101020000000000060e2b3401040101, false, false⟩ /- FPS -/,
    ⟨0x0404010105000000060e2b3401010101, 0x44726f70, some 0x1503, 0x0104010000000000060e2b3401040101, false, false⟩ /- Drop -/]⟩ /- Timecode -/,
  ⟨0x54696d65636f646553747265616d, 0x0d01010101011500060e2b3402060101, some 0x0d01010101010300060e2b3402060101, false, [
    ⟨0x0404010102010000060e2b3401010102, 0x53616d706c6552617465, some 0x1601, 0x0301010000000000060e2b3401040101, false, false⟩ /- SampleRate -/,
    ⟨0x0407030000000000060e2b3401010102, 0x536f75726365, some 0x1602, 0x0410020000000000060e2b3401040101, false, false⟩ /- Source -/,
    ⟨0x0404020100000000060e2b3401010101, 0x536f7572636554797065, some 0x1603, 0x0201010900000000060e2b3401040101, false, false⟩ /- SourceType -/]⟩ /- TimecodeStream -/,
  ⟨0x54696d65636f646553747265616d31324d, 0x0d01010101011600060e2b3402060101, some 0x0d01010101011500060e2b3402060101, true, [
    ⟨0x0404010104000000060e2b3401010101, 0x496e636c75646553796e63, some 0x1701, 0x0104010000000000060e2b3401040101, false, false⟩ /- IncludeSync -/]⟩ /- TimecodeStream12M -/,
  ⟨0x5472616e736974696f6e, 0x0d01010101011700060e2b3402060101, some 0x0d01010101010200060e2b3402060101, true, [
    ⟨0x0601010402050000060e2b3401010102, 0x4f7065726174696f6e47726f7570, some 0x1801, 0x0502050000000000060e2b3401040101, false, false⟩ /- OperationGroup -/,
    ⟨0x0702010301060000060e2b3401010102, 0x437574506f696e74, some 0x1802, 0x0101200100000000060e2b3401040101, false, false⟩ /- CutPoint -/]⟩ /- Transition -/,
  ⟨0x436f6e74656e7453746f72616765, 0x0d01010101011800060e2b3402060101, some 0x0d01010101010100060e2b3402060101, true, [
    ⟨0x0601010405010000060e2b3401010102, 0x4d6f6273, some 0x1901, 0x0505070000000000060e2b3401040101, false, false⟩ /- Mobs -/,
    ⟨0x0601010405020000060e2b3401010102, 0x457373656e636544617461, some 0x1902, 0x0505050000000000060e2b3401040101, true, false⟩ /- EssenceData -/]⟩ /- ContentStorage -/]

/-- Part of `baseClasses` (model/classdefs.py, `classdefs`). -/
def baseClasses2 : List CArgs := [
  ⟨0x436f6e74726f6c506f696e74, 0x0d01010101011900060e2b3402060101, some 0x0d01010101010100060e2b3402060101, true, [
    ⟨0x0530050d00000000060e2b3401010102, 0x56616c7565, some 0x1a02, 0x0410030000000000060e2b3401040101, false, false⟩ /- Value -/,
    ⟨0x0702010310020100060e2b3401010102, 0x54696d65, some 0x1a03, 0x0301010000000000060e2b3401040101, false, false⟩ /- Time -/,
    ⟨0x0530050800000000060e2b3401010102, 0x4564697448696e74, some 0x1a04, 0x0201010600000000060e2b3401040101, true, false⟩ /- EditHint -/]⟩ /- ControlPoint -/,
  ⟨0x446566696e6974696f6e4f626a656374, 0x0d01010101011a00060e2b3402060101, some 0x0d01010101010100060e2b3402060101, false, [
    ⟨0x0101150300000000060e2b3401010102, 0x4964656e74696669636174696f6e, some 0x1b01, 0x0103010000000000060e2b3401040101, false, true⟩ /- Identification -/,
    ⟨0x0107010203010000060e2b3401010102, 0x4e616d65, some 0x1b02, 0x0110020000000000060e2b3401040101, false, false⟩ /- Name -/,
    ⟨0x0302030102010000060e2b3401010102, 0x4465736372697074696f6e, some 0x1b03, 0x0110020000000000060e2b3401040101, true, false⟩ /- Description -/]⟩ /- DefinitionObject -/,
  ⟨0x44617461446566696e6974696f6e, 0x0d01010101011b00060e2b3402060101, some 0x0d01010101011a00060e2b3402060101, true, []⟩ /- DataDefinition -/,
  ⟨0x4f7065726174696f6e446566696e6974696f6e, 0x0d01010101011c00060e2b3402060101, some 0x0d01010101011a00060e2b3402060101, true, [
    ⟨0x0530050900000000060e2b3401010102, 0x44617461446566696e6974696f6e, some 0x1e01, 0x0501030000000000060e2b3401040101, false, false⟩ /- DataDefinition -/,
    ⟨0x0530050300000000060e2b3401010101, 0x497354696d6557617270, some 0x1e02, 0x0104010000000000060e2b3401040101, true, false⟩ /- IsTimeWarp -/,
    ⟨0x0601010404010000060e2b3401010102, 0x44656772616465546f, some 0x1e03, 0x0504010000000000060e2b3401040101, true, false⟩ /- DegradeTo -/,
    ⟨0x0530050a00000000060e2b3401010102, 0x4f7065726174696f6e43617465676f7279, some 0x1e06, 0x0202010100000000060e2b3401040101, true, false⟩ /- OperationCategory -/,
    ⟨0x0530050400000000060e2b3401010101, 0x4e756d626572496e70757473, some 0x1e07, 0x0101070000000000060e2b3401040101, false, false⟩ /- NumberInputs -/,
    ⟨0x0530050500000000060e2b3401010101, 0x427970617373, some 0x1e08, 0x0101030000000000060e2b3401040101, true, false⟩ /- Bypass -/,
    ⟨0x0601010403020000060e2b3401010102, 0x506172616d6574657273446566696e6564, some 0x1e09, 0x05030e0000000000060e2b3401040101, true, false⟩ /- ParametersDefined -/]⟩ /- OperationDefinition -/,
  ⟨0x506172616d65746572446566696e6974696f6e, 0x0d01010101011d00060e2b3402060101, some 0x0d01010101011a00060e2b3402060101, true, [
    ⟨0x0601010401060000060e2b3401010102, 0x54797065, some 0x1f01, 0x0501090000000000060e2b3401040101, false, false⟩ /- Type -/,
    ⟨0x0530050b01000000060e2b3401010102, 0x446973706c6179556e697473, some 0x1f03, 0x0110020000000000060e2b3401040101, true, false⟩ /- DisplayUnits -/]⟩ /- ParameterDefinition -/,
  ⟨0x506c7567696e446566696e6974696f6e, 0x0d01010101011e00060e2b3402060101, some 0x0d01010101011a00060e2b3402060101, true, [
    ⟨0x0520090100000000060e2b3401010102, 0x506c7567696e43617465676f7279, some 0x2203, 0x0202010300000000060e2b3401040101, false, false⟩ /- PluginCategory -/,
    ⟨0x0303030103000000060e2b3401010102, 0x56657273696f6e4e756d626572, some 0x2204, 0x0301030000000000060e2b3401040101, false, false⟩ /- VersionNumber -/,
    ⟨0x0303030102010000060e2b3401010102, 0x56657273696f6e537472696e67, some 0x2205, 0x0110020000000000060e2b3401040101, true, false⟩ /- VersionString -/,
    ⟨0x010a010101010000060e2b3401010102, 0x4d616e756661637475726572, some 0x2206, 0x0110020000000000060e2b3401040101, true, false⟩ /- Manufacturer -/,
    ⟨0x06010104020b0000060e2b3401010102, 0x4d616e756661637475726572496e666f, some 0x2207, 0x0502040000000000060e2b3401040101, true, false⟩ /- ManufacturerInfo -/,
    ⟨0x010a010103000000060e2b3401010102, 0x4d616e7566616374757265724944, some 0x2208, 0x0103010000000000060e2b3401040101, true, false⟩ /- ManufacturerID -/,
    ⟨0x0520090200000000060e2b3401010102, 0x506c6174666f726d, some 0x2209, 0x0103010000000000060e2b3401040101, true, false⟩ /- Platform -/,
    ⟨0x0520090300000000060e2b3401010102, 0x4d696e506c6174666f726d56657273696f6e, some 0x220a, 0x0301030000000000060e2b3401040101, true, false⟩ /- MinPlatformVersion -/,
    ⟨0x0520090400000000060e2b3401010102, 0x4d6178506c6174666f726d56657273696f6e, some 0x220b, 0x0301030000000000060e2b3401040101, true, false⟩ /- MaxPlatformVersion -/,
    ⟨0x0520090500000000060e2b3401010102, 0x456e67696e65, some 0x220c, 0x0103010000000000060e2b3401040101, true, false⟩ /- Engine -/,
    ⟨0x0520090600000000060e2b3401010102, 0x4d696e456e67696e6556657273696f6e, some 0x220d, 0x0301030000000000060e2b3401040101, true, false⟩ /- MinEngineVersion -/,
    ⟨0x0520090700000000060e2b3401010102, 0x4d6178456e67696e6556657273696f6e, some 0x220e, 0x0301030000000000060e2b3401040101, true, false⟩ /- MaxEngineVersion -/,
    ⟨0x0520090800000000060e2b3401010102, 0x506c7567696e415049, some 0x220f, 0x0103010000000000060e2b3401040101, true, false⟩ /- PluginAPI -/,
    ⟨0x0520090900000000060e2b3401010102, 0x4d696e506c7567696e415049, some 0x2210, 0x0301030000000000060e2b3401040101, true, false⟩ /- MinPluginAPI -/,
    ⟨0x0520090a00000000060e2b3401010102, 0x4d6178506c7567696e415049, some 0x2211, 0x0301030000000000060e2b3401040101, true, false⟩ /- MaxPluginAPI -/,
    ⟨0x0520090b00000000060e2b3401010102, 0x536f6674776172654f6e6c79, some 0x2212, 0x0104010000000000060e2b3401040101, true, false⟩ /- SoftwareOnly -/,
    ⟨0x0520090c00000000060e2b3401010102, 0x416363656c657261746f72, some 0x2213, 0x0104010000000000060e2b3401040101, true, false⟩ /- Accelerator -/,
    ⟨0x0520090d00000000060e2b3401010102, 0x4c6f6361746f7273, some 0x2214, 0x0506040000000000060e2b3401040101, true, false⟩ /- Locators -/,
    ⟨0x0520090e00000000060e2b3401010102, 0x41757468656e7469636174696f6e, some 0x2215, 0x0104010000000000060e2b3401040101, true, false⟩ /- Authentication -/,
    ⟨0x0520090f00000000060e2b3401010102, 0x446566696e6974696f6e4f626a656374, some 0x2216, 0x0103010000000000060e2b3401040101, true, false⟩ /- DefinitionObject -/]⟩ /- PluginDefinition -/,
  ⟨0x436f646563446566696e6974696f6e, 0x0d01010101011f00060e2b3402060101, some 0x0d01010101011a00060e2b3402060101, true, [
    ⟨0x0601010401070000060e2b3401010102, 0x46696c6544657363726970746f72436c617373, some 0x2301, 0x0501010000000000060e2b3401040101, false, false⟩ /- FileDescriptorClass -/,
    ⟨0x0601010403010000060e2b3401010102, 0x44617461446566696e6974696f6e73, some 0x2302, 0x0504030000000000060e2b3401040101, false, false⟩ /- DataDefinitions -/]⟩ /- CodecDefinition -/,
  ⟨0x436f6e7461696e6572446566696e6974696f6e, 0x0d01010101012000060e2b3402060101, some 0x0d01010101011a00060e2b3402060101, true, [
    ⟨0x0301020103000000060e2b3401010101, 0x457373656e636549734964656e746966696564, some 0x2401, 0x0104010000000000060e2b3401040101, true, false⟩ /- EssenceIsIdentified -/]⟩ /- ContainerDefinition -/,
  ⟨0x496e746572706f6c6174696f6e446566696e6974696f6e, 0x0d01010101012100060e2b3402060101, some 0x0d01010101011a00060e2b3402060101, true, []⟩ /- InterpolationDefinition -/,
  ⟨0x44696374696f6e617279, 0x0d01010101012200060e2b3402060101, some 0x0d01010101010100060e2b3402060101, true, [
    ⟨0x0601010405030000060e2b3401010102, 0x4f7065726174696f6e446566696e6974696f6e73, some 0x2603, 0x0505080000000000060e2b3401040101, true, false⟩ /- OperationDefinitions -/,
    ⟨0x0601010405040000060e2b3401010102, 0x506172616d65746572446566696e6974696f6e73, some 0x2604, 0x0505090000000000060e2b3401040101, true, false⟩ /- ParameterDefinitions -/,
    ⟨0x0601010405050000060e2b3401010102, 0x44617461446566696e6974696f6e73, some 0x2605, 0x0505040000000000060e2b3401040101, true, false⟩ /- DataDefinitions -/,
    ⟨0x0601010405060000060e2b3401010102, 0x506c7567696e446566696e6974696f6e73, some 0x2606, 0x05050a0000000000060e2b3401040101, true, false⟩ /- PluginDefinitions -/,
    ⟨0x0601010405070000060e2b3401010102, 0x436f646563446566696e6974696f6e73, some 0x2607, 0x0505020000000000060e2b3401040101, true, false⟩ /- CodecDefinitions -/,
    ⟨0x0601010405080000060e2b3401010102, 0x436f6e7461696e6572446566696e6974696f6e73, some 0x2608, 0x0505030000000000060e2b3401040101, true, false⟩ /- ContainerDefinitions -/,
    ⟨0x0601010405090000060e2b3401010102, 0x496e746572706f6c6174696f6e446566696e6974696f6e73, some 0x2609, 0x0505060000000000060e2b3401040101, true, false⟩ /- InterpolationDefinitions -/,
    ⟨0x06010104050a0000060e2b3401010107, 0x4b4c5644617461446566696e6974696f6e73, some 0x260a, 0x05050d0000000000060e2b3401040101, true, false⟩ /- KLVDataDefinitions -/,
    ⟨0x06010104050b0000060e2b3401010107, 0x54616767656456616c7565446566696e6974696f6e73, some 0x260b, 0x05050e0000000000060e2b3401040101, true, false⟩ /- TaggedValueDefinitions -/]⟩ /- Dictionary -/,
  ⟨0x457373656e636544617461, 0x0d01010101012300060e2b3402060101, some 0x0d01010101010100060e2b3402060101, true, [
    ⟨0x0601010601000000060e2b3401010102, 0x4d6f624944, some 0x2701, 0x0103020000000000060e2b3401040101, false, true⟩ /- MobID -/,
    ⟨0x0407020000000000060e2b3401010102, 0x44617461, some 0x2702, 0x0410020000000000060e2b3401040101, false, false⟩ /- Data -/,
    ⟨0x0601010201000000060e2b3401010102, 0x53616d706c65496e646578, some 0x2b01, 0x0410020000000000060e2b3401040101, true, false⟩ /- SampleIndex -/]⟩ /- EssenceData -/,
  ⟨0x457373656e636544657363726970746f72, 0x0d01010101012400060e2b3402060101, some 0x0d01010101010100060e2b3402060101, false, [
    ⟨0x0601010406030000060e2b3401010102, 0x4c6f6361746f72, some 0x2f01, 0x0506040000000000060e2b3401040101, true, false⟩ /- Locator -/,
    ⟨0x0601010406100000060e2b3401010109, 0x53756244657363726970746f7273, none, 0x05060e0000000000060e2b3401040101, true, false⟩ /- SubDescriptors -/]⟩ /- EssenceDescriptor -/]

/-- Part of `baseClasses` (model/classdefs.py, `classdefs`). -/
def baseClasses3 : List CArgs := [
  ⟨0x46696c6544657363726970746f72, 0x0d01010101012500060e2b3402060101, some 0x0d01010101012400060e2b3402060101, false, [
    ⟨0x0406010100000000060e2b3401010101, 0x53616d706c6552617465, some 0x3001, 0x0301010000000000060e2b3401040101, false, false⟩ /- SampleRate -/,
    ⟨0x0406010200000000060e2b3401010101, 0x4c656e677468, some 0x3002, 0x0101200200000000060e2b3401040101, false, false⟩ /- Length -/,
    ⟨0x0601010401020000060e2b3401010102, 0x436f6e7461696e6572466f726d6174, some 0x3004, 0x0501020000000000060e2b3401040101, true, false⟩ /- ContainerFormat -/,
    ⟨0x0601010401030000060e2b3401010102, 0x436f646563446566696e6974696f6e, some 0x3005, 0x05010b0000000000060e2b3401040101, true, false⟩ /- CodecDefinition -/,
    ⟨0x0601010305000000060e2b3401010105, 0x4c696e6b6564536c6f744944, some 0x3006, 0x0101030000000000060e2b3401040101, true, false⟩ /- LinkedSlotID -/]⟩ /- FileDescriptor -/,
  ⟨0x4149464344657363726970746f72, 0x0d01010101012600060e2b3402060101, some 0x0d01010101012500060e2b3402060101, true, [
    ⟨0x0303030202000000060e2b3401010102, 0x53756d6d617279, some 0x3101, 0x0410010000000000060e2b3401040101, false, false⟩ /- Summary -/]⟩ /- AIFCDescriptor -/,
  ⟨0x4469676974616c496d61676544657363726970746f72, 0x0d01010101012700060e2b3402060101, some 0x0d01010101012500060e2b3402060101, false, [
    ⟨0x0401060100000000060e2b3401010102, 0x436f6d7072657373696f6e, some 0x3201, 0x0103010000000000060e2b3401040101, true, false⟩ /- Compression -/,
    ⟨0x0401050201000000060e2b3401010101, 0x53746f726564486569676874, some 0x3202, 0x0101030000000000060e2b3401040101, false, false⟩ /- StoredHeight -/,
    ⟨0x0401050202000000060e2b3401010101, 0x53746f7265645769647468, some 0x3203, 0x0101030000000000060e2b3401040101, false, false⟩ /- StoredWidth -/,
    ⟨0x0401050107000000060e2b3401010101, 0x53616d706c6564486569676874, some 0x3204, 0x0101030000000000060e2b3401040101, true, false⟩ /- SampledHeight -/,
    ⟨0x0401050108000000060e2b3401010101, 0x53616d706c65645769647468, some 0x3205, 0x0101030000000000060e2b3401040101, true, false⟩ /- SampledWidth -/,
    ⟨0x0401050109000000060e2b3401010101, 0x53616d706c6564584f6666736574, some 0x3206, 0x0101070000000000060e2b3401040101, true, false⟩ /- SampledXOffset -/,
    ⟨0x040105010a000000060e2b3401010101, 0x53616d706c6564594f6666736574, some 0x3207, 0x0101070000000000060e2b3401040101, true, false⟩ /- SampledYOffset -/,
    ⟨0x040105010b000000060e2b3401010101, 0x446973706c6179486569676874, some 0x3208, 0x0101030000000000060e2b3401040101, true, false⟩ /- DisplayHeight -/,
    ⟨0x040105010c000000060e2b3401010101, 0x446973706c61795769647468, some 0x3209, 0x0101030000000000060e2b3401040101, true, false⟩ /- DisplayWidth -/,
    ⟨0x040105010d000000060e2b3401010101, 0x446973706c6179584f6666736574, some 0x320a, 0x0101070000000000060e2b3401040101, true, false⟩ /- DisplayXOffset -/,
    ⟨0x040105010e000000060e2b3401010101, 0x446973706c6179594f6666736574, some 0x320b, 0x0101070000000000060e2b3401040101, true, false⟩ /- DisplayYOffset -/,
    ⟨0x0401030104000000060e2b3401010101, 0x4672616d654c61796f7574, some 0x320c, 0x0201010800000000060e2b3401040101, false, false⟩ /- FrameLayout -/,
    ⟨0x0401030205000000060e2b3401010102, 0x566964656f4c696e654d6170, some 0x320d, 0x0401030000000000060e2b3401040101, false, false⟩ /- VideoLineMap -/,
    ⟨0x0401010101000000060e2b3401010101, 0x496d616765417370656374526174696f, some 0x320e, 0x0301010000000000060e2b3401040101, false, false⟩ /- ImageAspectRatio -/,
    ⟨0x0520010200000000060e2b3401010102, 0x416c7068615472616e73706172656e6379, some 0x320f, 0x0201012000000000060e2b3401040101, true, false⟩ /- AlphaTransparency -/,
    ⟨0x0401020101010200060e2b3401010102, 0x5472616e736665724368617261637465726973746963, some 0x3210, 0x0202010200000000060e2b3401040101, true, false⟩ /- TransferCharacteristic -/,
    ⟨0x0401020101060100060e2b3401010109, 0x436f6c6f725072696d6172696573, some 0x3219, 0x0202010500000000060e2b3401040101, true, false⟩ /- ColorPrimaries -/,
    ⟨0x0401020101030100060e2b3401010102, 0x436f64696e674571756174696f6e73, some 0x321a, 0x0202010600000000060e2b3401040101, true, false⟩ /- CodingEquations -/,
    ⟨0x0418010100000000060e2b3401010102, 0x496d616765416c69676e6d656e74466163746f72, some 0x3211, 0x0101030000000000060e2b3401040101, true, false⟩ /- ImageAlignmentFactor -/,
    ⟨0x0401030106000000060e2b3401010102, 0x4669656c64446f6d696e616e6365, some 0x3212, 0x0201012100000000060e2b3401040101, true, false⟩ /- FieldDominance -/,
    ⟨0x0418010200000000060e2b3401010102, 0x4669656c6453746172744f6666736574, some 0x3213, 0x0101030000000000060e2b3401040101, true, false⟩ /- FieldStartOffset -/,
    ⟨0x0418010300000000060e2b3401010102, 0x4669656c64456e644f6666736574, some 0x3214, 0x0101030000000000060e2b3401040101, true, false⟩ /- FieldEndOffset -/,
    ⟨0x0405011300000000060e2b3401010105, 0x5369676e616c5374616e64617264, some 0x3215, 0x0201012700000000060e2b3401040101, true, false⟩ /- SignalStandard -/,
    ⟨0x0401030208000000060e2b3401010105, 0x53746f72656446324f6666736574, some 0x3216, 0x0101070000000000060e2b3401040101, true, false⟩ /- StoredF2Offset -/,
    ⟨0x0401030207000000060e2b3401010105, 0x446973706c617946324f6666736574, some 0x3217, 0x0101070000000000060e2b3401040101, true, false⟩ /- DisplayF2Offset -/,
    ⟨0x0401030209000000060e2b3401010105, 0x416374697665466f726d617444657363726970746f72, some 0x3218, 0x0101010000000000060e2b3401040101, true, false⟩ /- ActiveFormatDescriptor -/]⟩ /- DigitalImageDescriptor -/,
  ⟨0x4344434944657363726970746f72, 0x0d01010101012800060e2b3402060101, some 0x0d01010101012700060e2b3402060101, true, [
    ⟨0x040105030a000000060e2b3401010102, 0x436f6d706f6e656e745769647468, some 0x3301, 0x0101030000000000060e2b3401040101, false, false⟩ /- ComponentWidth -/,
    ⟨0x0401050105000000060e2b3401010101, 0x486f72697a6f6e74616c53756273616d706c696e67, some 0x3302, 0x0101030000000000060e2b3401040101, false, false⟩ /- HorizontalSubsampling -/,
    ⟨0x0401050106000000060e2b3401010101, 0x436f6c6f72536974696e67, some 0x3303, 0x0201010500000000060e2b3401040101, true, false⟩ /- ColorSiting -/,
    ⟨0x0401050303000000060e2b3401010101, 0x426c61636b5265666572656e63654c6576656c, some 0x3304, 0x0101030000000000060e2b3401040101, true, false⟩ /- BlackReferenceLevel -/,
    ⟨0x0401050304000000060e2b3401010101, 0x57686974655265666572656e63654c6576656c, some 0x3305, 0x0101030000000000060e2b3401040101, true, false⟩ /- WhiteReferenceLevel -/,
    ⟨0x0401050305000000060e2b3401010102, 0x436f6c6f7252616e6765, some 0x3306, 0x0101030000000000060e2b3401040101, true, false⟩ /- ColorRange -/,
    ⟨0x0418010400000000060e2b3401010102, 0x50616464696e6742697473, some 0x3307, 0x0101060000000000060e2b3401040101, true, false⟩ /- PaddingBits -/,
    ⟨0x0401050110000000060e2b3401010102, 0x566572746963616c53756273616d706c696e67, some 0x3308, 0x0101030000000000060e2b3401040101, true, false⟩ /- VerticalSubsampling -/,
    ⟨0x0401050307000000060e2b3401010102, 0x416c70686153616d706c696e675769647468, some 0x3309, 0x0101030000000000060e2b3401040101, true, false⟩ /- AlphaSamplingWidth -/,
    ⟨0x030102010a000000060e2b3401010105, 0x5265766572736564427974654f72646572, some 0x330b, 0x0104010000000000060e2b3401040101, true, false⟩ /- ReversedByteOrder -/]⟩ /- CDCIDescriptor -/,
  ⟨0x5247424144657363726970746f72, 0x0d01010101012900060e2b3402060101, some 0x0d01010101012700060e2b3402060101, true, [
    ⟨0x0401050306000000060e2b3401010102, 0x506978656c4c61796f7574, some 0x3401, 0x0402010000000000060e2b3401040101, false, false⟩ /- PixelLayout -/,
    ⟨0x0401050308000000060e2b3401010102, 0x50616c65747465, some 0x3403, 0x0410010000000000060e2b3401040101, true, false⟩ /- Palette -/,
    ⟨0x0401050309000000060e2b3401010102, 0x50616c657474654c61796f7574, some 0x3404, 0x0402010000000000060e2b3401040101, true, false⟩ /- PaletteLayout -/,
    ⟨0x0401040401000000060e2b3401010105, 0x5363616e6e696e67446972656374696f6e, some 0x3405, 0x0201012800000000060e2b3401040101, true, false⟩ /- ScanningDirection -/,
    ⟨0x040105030b000000060e2b3401010105, 0x436f6d706f6e656e744d6178526566, some 0x3406, 0x0101030000000000060e2b3401040101, true, false⟩ /- ComponentMaxRef -/,
    ⟨0x040105030c000000060e2b3401010105, 0x436f6d706f6e656e744d696e526566, some 0x3407, 0x0101030000000000060e2b3401040101, true, false⟩ /- ComponentMinRef -/,
    ⟨0x040105030d000000060e2b3401010105, 0x416c7068614d6178526566, some 0x3408, 0x0101030000000000060e2b3401040101, true, false⟩ /- AlphaMaxRef -/,
    ⟨0x040105030e000000060e2b3401010105, 0x416c7068614d696e526566, some 0x3409, 0x0101030000000000060e2b3401040101, true, false⟩ /- AlphaMinRef -/]⟩ /- RGBADescriptor -/,
  ⟨0x48544d4c44657363726970746f72, 0x0d01010101012a00060e2b3402060101, some 0x0d01010101012500060e2b3402060101, true, []⟩ /- HTMLDescriptor -/,
  ⟨0x5449464644657363726970746f72, 0x0d01010101012b00060e2b3402060101, some 0x0d01010101012500060e2b3402060101, true, [
    ⟨0x0502010301010000060e2b3401010102, 0x4973556e69666f726d, some 0x3701, 0x0104010000000000060e2b3401040101, false, false⟩ /- IsUniform -/,
    ⟨0x0608020100000000060e2b3401010101, 0x4973436f6e746967756f7573, some 0x3702, 0x0104010000000000060e2b3401040101, false, false⟩ /- IsContiguous -/,
    ⟨0x0401030203000000060e2b3401010101, 0x4c656164696e674c696e6573, some 0x3703, 0x0101070000000000060e2b3401040101, true, false⟩ /- LeadingLines -/,
    ⟨0x0401030204000000060e2b3401010101, 0x547261696c696e674c696e6573, some 0x3704, 0x0101070000000000060e2b3401040101, true, false⟩ /- TrailingLines -/,
    ⟨0x0502010301020000060e2b3401010102, 0x4a5045475461626c654944, some 0x3705, 0x0101200300000000060e2b3401040101, true, false⟩ /- JPEGTableID -/,
    ⟨0x0303030203000000060e2b3401010102, 0x53756d6d617279, some 0x3706, 0x0410010000000000060e2b3401040101, false, false⟩ /- Summary -/]⟩ /- TIFFDescriptor -/,
  ⟨0x5741564544657363726970746f72, 0x0d01010101012c00060e2b3402060101, some 0x0d01010101012500060e2b3402060101, true, [
    ⟨0x0303030201000000060e2b3401010102, 0x53756d6d617279, some 0x3801, 0x0410010000000000060e2b3401040101, false, false⟩ /- Summary -/]⟩ /- WAVEDescriptor -/,
  ⟨0x46696c6d44657363726970746f72, 0x0d01010101012d00060e2b3402060101, some 0x0d01010101012400060e2b3402060101, true, [
    ⟨0x0410010301080000060e2b3401010102, 0x46696c6d466f726d6174, some 0x3901, 0x0201010d00000000060e2b3401040101, true, false⟩ /- FilmFormat -/,
    ⟨0x0401080203000000060e2b3401010102, 0x4672616d6552617465, some 0x3902, 0x0101030000000000060e2b3401040101, true, false⟩ /- FrameRate -/,
    ⟨0x0410010301030000060e2b3401010102, 0x506572666f726174696f6e735065724672616d65, some 0x3903, 0x0101010000000000060e2b3401040101, true, false⟩ /- PerforationsPerFrame -/,
    ⟨0x0410010302030000060e2b3401010102, 0x46696c6d417370656374526174696f, some 0x3904, 0x0301010000000000060e2b3401040101, true, false⟩ /- FilmAspectRatio -/,
    ⟨0x0410010301060100060e2b3401010102, 0x4d616e756661637475726572, some 0x3905, 0x0110020000000000060e2b3401040101, true, false⟩ /- Manufacturer -/,
    ⟨0x0410010301050100060e2b3401010102, 0x4d6f64656c, some 0x3906, 0x0110020000000000060e2b3401040101, true, false⟩ /- Model -/,
    ⟨0x0410010301040100060e2b3401010102, 0x46696c6d4761756765466f726d6174, some 0x3907, 0x0110020000000000060e2b3401040101, true, false⟩ /- FilmGaugeFormat -/,
    ⟨0x0410010301070100060e2b3401010102, 0x46696c6d42617463684e756d626572, some 0x3908, 0x0110020000000000060e2b3401040101, true, false⟩ /- FilmBatchNumber -/]⟩ /- FilmDescriptor -/,
  ⟨0x5461706544657363726970746f72, 0x0d01010101012e00060e2b3402060101, some 0x0d01010101012400060e2b3402060101, true, [
    ⟨0x0410010101010000060e2b3401010102, 0x466f726d466163746f72, some 0x3a01, 0x0201010400000000060e2b3401040101, true, false⟩ /- FormFactor -/,
    ⟨0x0401040101000000060e2b3401010102, 0x566964656f5369676e616c, some 0x3a02, 0x0201010300000000060e2b3401040101, true, false⟩ /- VideoSignal -/,
    ⟨0x0d01010101010100060e2b3401010102, 0x54617065466f726d6174, some 0x3a03, 0x0201010200000000060e2b3401040101, true, false⟩ /- TapeFormat -/,
    ⟨0x0410010103000000060e2b3401010102, 0x4c656e677468, some 0x3a04, 0x0101030000000000060e2b3401040101, true, false⟩ /- Length -/,
    ⟨0x0410010104010000060e2b3401010102, 0x4d616e7566616374757265724944, some 0x3a05, 0x0110020000000000060e2b3401040101, true, false⟩ /- ManufacturerID -/,
    ⟨0x0410010102010000060e2b3401010102, 0x4d6f64656c, some 0x3a06, 0x0110020000000000060e2b3401040101, true, false⟩ /- Model -/,
    ⟨0x0410010106010000060e2b3401010102, 0x5461706542617463684e756d626572, some 0x3a07, 0x0110020000000000060e2b3401040101, true, false⟩ /- TapeBatchNumber -/,
    ⟨0x0410010105010000060e2b3401010102, 0x5461706553746f636b, some 0x3a08, 0x0110020000000000060e2b3401040101, true, false⟩ /- TapeStock -/]⟩ /- TapeDescriptor -/,
  ⟨0x486561646572, 0x0d01010101012f00060e2b3402060101, some 0x0d01010101010100060e2b3402060101, true, [
    ⟨0x0301020102000000060e2b3401010101, 0x427974654f72646572, some 0x3b01, 0x0101060000000000060e2b3401040101, false, false⟩ /- ByteOrder -/,
    ⟨0x0702011002040000060e2b3401010102, 0x4c6173744d6f646966696564, some 0x3b02, 0x0301070000000000060e2b3401040101, false, false⟩ /- LastModified -/,
    ⟨0x0601010402010000060e2b3401010102, 0x436f6e74656e74, some 0x3b03, 0x0502010000000000060e2b3401040101, false, false⟩ /- Content -/,
    ⟨0x0601010402020000060e2b3401010102, 0x44696374696f6e617279, some 0x3b04, 0x0502020000000000060e2b3401040101, false, false⟩ /- Dictionary -/,
    ⟨0x0301020105000000060e2b3401010102, 0x56657273696f6e, some 0x3b05, 0x0301030000000000060e2b3401040101, false, false⟩ /- Version -/,
    ⟨0x0601010406040000060e2b3401010102, 0x4964656e74696669636174696f6e4c697374, some 0x3b06, 0x0506030000000000060e2b3401040101, false, false⟩ /- IdentificationList -/,
    ⟨0x0301020104000000060e2b3401010102, 0x4f626a6563744d6f64656c56657273696f6e, some 0x3b07, 0x0101030000000000060e2b3401040101, true, false⟩ /- ObjectModelVersion -/,
    ⟨0x0601010401080000060e2b3401010104, 0x5072696d6172794d6f62, some 0x3b08, 0x0501060000000000060e2b3401040101, true, false⟩ /- PrimaryMob -/,
    ⟨0x0102020300000000060e2b3401010105, 0x4f7065726174696f6e616c5061747465726e, some 0x3b09, 0x0103010000000000060e2b3401040101, true, false⟩ /- OperationalPattern -/,
    ⟨0x0102021002010000060e2b3401010105, 0x457373656e6365436f6e7461696e657273, some 0x3b0a, 0x0403010000000000060e2b3401040101, true, false⟩ /- EssenceContainers -/,
    ⟨0x0102021002020000060e2b3401010105, 0x4465736372697074697665536368656d6573, some 0x3b0b, 0x0403010000000000060e2b3401040101, true, false⟩ /- DescriptiveSchemes -/]⟩ /- Header -/,
  ⟨0x4964656e74696669636174696f6e, 0x0d01010101013000060e2b3402060101, some 0x0d01010101010100060e2b3402060101, true, [
    ⟨0x0520070102010000060e2b3401010102, 0x436f6d70616e794e616d65, some 0x3c01, 0x0110020000000000060e2b3401040101, false, false⟩ /- CompanyName -/,
    ⟨0x0520070103010000060e2b3401010102, 0x50726f647563744e616d65, some 0x3c02, 0x0110020000000000060e2b3401040101, false, false⟩ /- ProductName -/,
    ⟨0x0520070104000000060e2b3401010102, 0x50726f6475637456657273696f6e, some 0x3c03, 0x0301020000000000060e2b3401040101, true, false⟩ /- ProductVersion -/,
    ⟨0x0520070105010000060e2b3401010102, 0x50726f6475637456657273696f6e537472696e67, some 0x3c04, 0x0110020000000000060e2b3401040101, false, false⟩ /- ProductVersionString -/,
    ⟨0x0520070107000000060e2b3401010102, 0x50726f647563744944, some 0x3c05, 0x0103010000000000060e2b3401040101, false, false⟩ /- ProductID -/,
    ⟨0x0702011002030000060e2b3401010102, 0x44617465, some 0x3c06, 0x0301070000000000060e2b3401040101, false, false⟩ /- Date -/,
    ⟨0x052007010a000000060e2b3401010102, 0x546f6f6c6b697456657273696f6e, some 0x3c07, 0x0301020000000000060e2b3401040101, true, false⟩ /- ToolkitVersion -/,
    ⟨0x0520070106010000060e2b3401010102, 0x506c6174666f726d, some 0x3c08, 0x0110020000000000060e2b3401040101, true, false⟩ /- Platform -/,
    ⟨0x0520070101000000060e2b3401010102, 0x47656e65726174696f6e41554944, some 0x3c09, 0x0103010000000000060e2b3401040101, false, false⟩ /- GenerationAUID -/]⟩ /- Identification -/]

/-- Part of `baseClasses` (model/classdefs.py, `classdefs`). -/
def baseClasses4 : List CArgs := [
  ⟨0x4c6f6361746f72, 0x0d01010101013100060e2b3402060101, some 0x0d01010101010100060e2b3402060101, false, []⟩ /- Locator -/,
  ⟨0x4e6574776f726b4c6f6361746f72, 0x0d01010101013200060e2b3402060101, some 0x0d01010101013100060e2b3402060101, true, [
    ⟨0x0102010101000000060e2b3401010101, 0x55524c537472696e67, some 0x4001, 0x0110020000000000060e2b3401040101, false, false⟩ /- URLString -/]⟩ /- NetworkLocator -/,
  ⟨0x546578744c6f6361746f72, 0x0d01010101013300060e2b3402060101, some 0x0d01010101013100060e2b3402060101, true, [
    ⟨0x0104010201000000060e2b3401010102, 0x4e616d65, some 0x4101, 0x0110020000000000060e2b3401040101, false, false⟩ /- Name -/]⟩ /- TextLocator -/,
  ⟨0x4d6f62, 0x0d01010101013400060e2b3402060101, some 0x0d01010101010100060e2b3402060101, false, [
    ⟨0x0101151000000000060e2b3401010101, 0x4d6f624944, some 0x4401, 0x0103020000000000060e2b3401040101, false, true⟩ /- MobID -/,
    ⟨0x0103030201000000060e2b3401010101, 0x4e616d65, some 0x4402, 0x0110020000000000060e2b3401040101, true, false⟩ /- Name -/,
    ⟨0x0601010406050000060e2b3401010102, 0x536c6f7473, some 0x4403, 0x0506050000000000060e2b3401040101, false, false⟩ /- Slots -/,
    ⟨0x0702011002050000060e2b3401010102, 0x4c6173744d6f646966696564, some 0x4404, 0x0301070000000000060e2b3401040101, false, false⟩ /- LastModified -/,
    ⟨0x0702011001030000060e2b3401010102, 0x4372656174696f6e54696d65, some 0x4405, 0x0301070000000000060e2b3401040101, false, false⟩ /- CreationTime -/,
    ⟨0x030201020c000000060e2b3401010102, 0x55736572436f6d6d656e7473, some 0x4406, 0x0506080000000000060e2b3401040101, true, false⟩ /- UserComments -/,
    ⟨0x0301021003000000060e2b3401010102, 0x4b4c5644617461, some 0x4407, 0x0506090000000000060e2b3401040101, true, false⟩ /- KLVData -/,
    ⟨0x0301021007000000060e2b3401010107, 0x41747472696275746573, some 0x4409, 0x0506080000000000060e2b3401040101, true, false⟩ /- Attributes -/,
    ⟨0x0501010800000000060e2b3401010107, 0x5573616765436f6465, some 0x4408, 0x0202010400000000060e2b3401040101, true, false⟩ /- UsageCode -/]⟩ /- Mob -/,
  ⟨0x436f6d706f736974696f6e4d6f62, 0x0d01010101013500060e2b3402060101, some 0x0d01010101013400060e2b3402060101, true, [
    ⟨0x0702020101050100060e2b3401010102, 0x44656661756c74466164654c656e677468, some 0x4501, 0x0101200200000000060e2b3401040101, true, false⟩ /- DefaultFadeLength -/,
    ⟨0x0530020100000000060e2b3401010101, 0x4465664661646554797065, some 0x4502, 0x0201010700000000060e2b3401040101, true, false⟩ /- DefFadeType -/,
    ⟨0x0530040300000000060e2b3401010102, 0x4465664661646545646974556e6974, some 0x4503, 0x0301010000000000060e2b3401040101, true, false⟩ /- DefFadeEditUnit -/,
    ⟨0x06010104010a0000060e2b3401010108, 0x52656e646572696e67, some 0x4504, 0x0103020000000000060e2b3401040101, true, false⟩ /- Rendering -/]⟩ /- CompositionMob -/,
  ⟨0x4d61737465724d6f62, 0x0d01010101013600060e2b3402060101, some 0x0d01010101013400060e2b3402060101, true, []⟩ /- MasterMob -/,
  ⟨0x536f757263654d6f62, 0x0d01010101013700060e2b3402060101, some 0x0d01010101013400060e2b3402060101, true, [
    ⟨0x0601010402030000060e2b3401010102, 0x457373656e63654465736372697074696f6e, some 0x4701, 0x0502030000000000060e2b3401040101, false, false⟩ /- EssenceDescription -/]⟩ /- SourceMob -/,
  ⟨0x4d6f62536c6f74, 0x0d01010101013800060e2b3402060101, some 0x0d01010101010100060e2b3402060101, false, [
    ⟨0x0107010100000000060e2b3401010102, 0x536c6f744944, some 0x4801, 0x0101030000000000060e2b3401040101, false, false⟩ /- SlotID -/,
    ⟨0x0107010201000000060e2b3401010102, 0x536c6f744e616d65, some 0x4802, 0x0110020000000000060e2b3401040101, true, false⟩ /- SlotName -/,
    ⟨0x0601010402040000060e2b3401010102, 0x5365676d656e74, some 0x4803, 0x0502060000000000060e2b3401040101, false, false⟩ /- Segment -/,
    ⟨0x0104010300000000060e2b3401010102, 0x506879736963616c547261636b4e756d626572, some 0x4804, 0x0101030000000000060e2b3401040101, true, false⟩ /- PhysicalTrackNumber -/]⟩ /- MobSlot -/,
  ⟨0x4576656e744d6f62536c6f74, 0x0d01010101013900060e2b3402060101, some 0x0d01010101013800060e2b3402060101, true, [
    ⟨0x0530040200000000060e2b3401010102, 0x4564697452617465, some 0x4901, 0x0301010000000000060e2b3401040101, false, false⟩ /- EditRate -/,
    ⟨0x07020103010b0000060e2b3401010105, 0x4576656e74536c6f744f726967696e, some 0x4902, 0x0101200100000000060e2b3401040101, true, false⟩ /- EventSlotOrigin -/]⟩ /- EventMobSlot -/,
  ⟨0x5374617469634d6f62536c6f74, 0x0d01010101013a00060e2b3402060101, some 0x0d01010101013800060e2b3402060101, true, []⟩ /- StaticMobSlot -/,
  ⟨0x54696d656c696e654d6f62536c6f74, 0x0d01010101013b00060e2b3402060101, some 0x0d01010101013800060e2b3402060101, true, [
    ⟨0x0530040500000000060e2b3401010102, 0x4564697452617465, some 0x4b01, 0x0301010000000000060e2b3401040101, false, false⟩ /- EditRate -/,
    ⟨0x0702010301030000060e2b3401010102, 0x4f726967696e, some 0x4b02, 0x0101200100000000060e2b3401040101, false, false⟩ /- Origin -/,
    ⟨0x07020103010c0000060e2b3401010107, 0x4d61726b496e, some 0x4b03, 0x0101200100000000060e2b3401040101, true, false⟩ /- MarkIn -/,
    ⟨0x0702010302030000060e2b3401010107, 0x4d61726b4f7574, some 0x4b04, 0x0101200100000000060e2b3401040101, true, false⟩ /- MarkOut -/,
    ⟨0x07020103010d0000060e2b3401010107, 0x55736572506f73, some 0x4b05, 0x0101200100000000060e2b3401040101, true, false⟩ /- UserPos -/]⟩ /- TimelineMobSlot -/,
  ⟨0x506172616d65746572, 0x0d01010101013c00060e2b3402060101, some 0x0d01010101010100060e2b3402060101, false, [
    ⟨0x0601010401040000060e2b3401010102, 0x446566696e6974696f6e, some 0x4c01, 0x0103010000000000060e2b3401040101, false, false⟩ /- Definition -/]⟩ /- Parameter -/]

/-- Part of `baseClasses` (model/classdefs.py, `classdefs`). -/
def baseClasses5 : List CArgs := [
  ⟨0x436f6e7374616e7456616c7565, 0x0d01010101013d00060e2b3402060101, some 0x0d01010101013c00060e2b3402060101, true, [
    ⟨0x0530050700000000060e2b3401010102, 0x56616c7565, some 0x4d01, 0x0410030000000000060e2b3401040101, false, false⟩ /- Value -/]⟩ /- ConstantValue -/,
  ⟨0x56617279696e6756616c7565, 0x0d01010101013e00060e2b3402060101, some 0x0d01010101013c00060e2b3402060101, true, [
    ⟨0x0601010401050000060e2b3401010102, 0x496e746572706f6c6174696f6e, some 0x4e01, 0x0501050000000000060e2b3401040101, false, false⟩ /- Interpolation -/,
    ⟨0x0601010406060000060e2b3401010102, 0x506f696e744c697374, some 0x4e02, 0x0506020000000000060e2b3401040101, false, false⟩ /- PointList -/]⟩ /- VaryingValue -/,
  ⟨0x54616767656456616c7565, 0x0d01010101013f00060e2b3402060101, some 0x0d01010101010100060e2b3402060101, true, [
    ⟨0x0302010209010000060e2b3401010102, 0x4e616d65, some 0x5001, 0x0110020000000000060e2b3401040101, false, false⟩ /- Name -/,
    ⟨0x030201020a010000060e2b3401010102, 0x56616c7565, some 0x5003, 0x0410030000000000060e2b3401040101, false, false⟩ /- Value -/]⟩ /- TaggedValue -/,
  ⟨0x4b4c5644617461, 0x0d01010101014000060e2b3402060101, some 0x0d01010101010100060e2b3402060101, true, [
    ⟨0x0301021002000000060e2b3401010102, 0x56616c7565, some 0x5101, 0x0410040000000000060e2b3401040101, false, false⟩ /- Value -/]⟩ /- KLVData -/,
  ⟨0x44657363726970746976654d61726b6572, 0x0d01010101014100060e2b3402060101, some 0x0d01010101010800060e2b3402060101, true, [
    ⟨0x0107010500000000060e2b3401010104, 0x446573637269626564536c6f7473, some 0x6102, 0x0403020000000000060e2b3401040101, true, false⟩ /- DescribedSlots -/,
    ⟨0x06010104020c0000060e2b3401010105, 0x4465736372697074696f6e, some 0x6101, 0x05021f0000000000060e2b3401040101, true, false⟩ /- Description -/]⟩ /- DescriptiveMarker -/,
  ⟨0x536f756e6444657363726970746f72, 0x0d01010101014200060e2b3402060101, some 0x0d01010101012500060e2b3402060101, true, [
    ⟨0x0402030101010000060e2b3401010105, 0x417564696f53616d706c696e6752617465, some 0x3d03, 0x0301010000000000060e2b3401040101, false, false⟩ /- AudioSamplingRate -/,
    ⟨0x0402030104000000060e2b3401010104, 0x4c6f636b6564, some 0x3d02, 0x0104010000000000060e2b3401040101, true, false⟩ /- Locked -/,
    ⟨0x0402010103000000060e2b3401010101, 0x417564696f5265664c6576656c, some 0x3d04, 0x0101050000000000060e2b3401040101, true, false⟩ /- AudioRefLevel -/,
    ⟨0x0402010101000000060e2b3401010101, 0x456c656374726f5370617469616c, some 0x3d05, 0x0201012200000000060e2b3401040101, true, false⟩ /- ElectroSpatial -/,
    ⟨0x0402010104000000060e2b3401010105, 0x4368616e6e656c73, some 0x3d07, 0x0101030000000000060e2b3401040101, false, false⟩ /- Channels -/,
    ⟨0x0402030304000000060e2b3401010104, 0x5175616e74697a6174696f6e42697473, some 0x3d01, 0x0101030000000000060e2b3401040101, false, false⟩ /- QuantizationBits -/,
    ⟨0x0402070100000000060e2b3401010105, 0x4469616c4e6f726d, some 0x3d0c, 0x0101050000000000060e2b3401040101, true, false⟩ /- DialNorm -/,
    ⟨0x0402040200000000060e2b3401010102, 0x436f6d7072657373696f6e, some 0x3d06, 0x0103010000000000060e2b3401040101, true, false⟩ /- Compression -/]⟩ /- SoundDescriptor -/,
  ⟨0x44617461457373656e636544657363726970746f72, 0x0d01010101014300060e2b3402060101, some 0x0d01010101012500060e2b3402060101, true, [
    ⟨0x0403030200000000060e2b3401010103, 0x44617461457373656e6365436f64696e67, some 0x3e01, 0x0103010000000000060e2b3401040101, true, false⟩ /- DataEssenceCoding -/]⟩ /- DataEssenceDescriptor -/,
  ⟨0x4d756c7469706c6544657363726970746f72, 0x0d01010101014400060e2b3402060101, some 0x0d01010101012500060e2b3402060101, true, [
    ⟨0x06010104060b0000060e2b3401010104, 0x46696c6544657363726970746f7273, some 0x3f01, 0x05060b0000000000060e2b3401040101, false, false⟩ /- FileDescriptors -/]⟩ /- MultipleDescriptor -/,
  ⟨0x4465736372697074697665436c6970, 0x0d01010101014500060e2b3402060101, some 0x0d01010101011100060e2b3402060101, true, [
    ⟨0x0107010600000000060e2b3401010105, 0x446573637269626564536c6f74494473, some 0x6103, 0x0403020000000000060e2b3401040101, true, false⟩ /- DescribedSlotIDs -/]⟩ /- DescriptiveClip -/,
  ⟨0x4145533350434d44657363726970746f72, 0x0d01010101014700060e2b3402060101, some 0x0d01010101014800060e2b3402060101, true, [
    ⟨0x0402050106000000060e2b3401010105, 0x456d706861736973, some 0x3d0d, 0x0201012300000000060e2b3401040101, true, false⟩ /- Emphasis -/,
    ⟨0x0402030203000000060e2b3401010105, 0x426c6f636b53746172744f6666736574, some 0x3d0f, 0x0101020000000000060e2b3401040101, true, false⟩ /- BlockStartOffset -/,
    ⟨0x0402050101000000060e2b3401010105, 0x417578426974734d6f6465, some 0x3d08, 0x0201012400000000060e2b3401040101, true, false⟩ /- AuxBitsMode -/,
    ⟨0x0402050102000000060e2b3401010105, 0x4368616e6e656c5374617475734d6f6465, some 0x3d10, 0x04010a0000000000060e2b3401040101, true, false⟩ /- ChannelStatusMode -/,
    ⟨0x0402050103000000060e2b3401010105, 0x46697865644368616e6e656c53746174757344617461, some 0x3d11, 0x0401010000000000060e2b3401040101, true, false⟩ /- FixedChannelStatusData -/,
    ⟨0x0402050104000000060e2b3401010105, 0x55736572446174614d6f6465, some 0x3d12, 0x04010b0000000000060e2b3401040101, true, false⟩ /- UserDataMode -/,
    ⟨0x0402050105000000060e2b3401010105, 0x46697865645573657244617461, some 0x3d13, 0x0401010000000000060e2b3401040101, true, false⟩ /- FixedUserData -/]⟩ /- AES3PCMDescriptor -/,
  ⟨0x50434d44657363726970746f72, 0x0d01010101014800060e2b3402060101, some 0x0d01010101014200060e2b3402060101, true, [
    ⟨0x0402030201000000060e2b3401010105, 0x426c6f636b416c69676e, some 0x3d0a, 0x0101020000000000060e2b3401040101, false, false⟩ /- BlockAlign -/,
    ⟨0x0402030202000000060e2b3401010105, 0x53657175656e63654f6666736574, some 0x3d0b, 0x0101010000000000060e2b3401040101, true, false⟩ /- SequenceOffset -/,
    ⟨0x0402030305000000060e2b3401010105, 0x41766572616765425053, some 0x3d09, 0x0101030000000000060e2b3401040101, false, false⟩ /- AverageBPS -/,
    ⟨0x0402010105000000060e2b3401010107, 0x4368616e6e656c41737369676e6d656e74, some 0x3d32, 0x0103010000000000060e2b3401040101, true, false⟩ /- ChannelAssignment -/,
    ⟨0x0402030106000000060e2b3401010108, 0x5065616b456e76656c6f706556657273696f6e, some 0x3d29, 0x0101030000000000060e2b3401040101, true, false⟩ /- PeakEnvelopeVersion -/,
    ⟨0x0402030107000000060e2b3401010108, 0x5065616b456e76656c6f7065466f726d6174, some 0x3d2a, 0x0101030000000000060e2b3401040101, true, false⟩ /- PeakEnvelopeFormat -/,
    ⟨0x0402030108000000060e2b3401010108, 0x506f696e74735065725065616b56616c7565, some 0x3d2b, 0x0101030000000000060e2b3401040101, true, false⟩ /- PointsPerPeakValue -/,
    ⟨0x0402030109000000060e2b3401010108, 0x5065616b456e76656c6f7065426c6f636b53697a65, some 0x3d2c, 0x0101030000000000060e2b3401040101, true, false⟩ /- PeakEnvelopeBlockSize -/,
    ⟨0x040203010a000000060e2b3401010108, 0x5065616b4368616e6e656c73, some 0x3d2d, 0x0101030000000000060e2b3401040101, true, false⟩ /- PeakChannels -/,
    ⟨0x040203010b000000060e2b3401010108, 0x5065616b4672616d6573, some 0x3d2e, 0x0101030000000000060e2b3401040101, true, false⟩ /- PeakFrames -/,
    ⟨0x040203010c000000060e2b3401010108, 0x5065616b4f665065616b73506f736974696f6e, some 0x3d2f, 0x0101200100000000060e2b3401040101, true, false⟩ /- PeakOfPeaksPosition -/,
    ⟨0x040203010d000000060e2b3401010108, 0x5065616b456e76656c6f706554696d657374616d70, some 0x3d30, 0x0301070000000000060e2b3401040101, true, false⟩ /- PeakEnvelopeTimestamp -/,
    ⟨0x040203010e000000060e2b3401010108, 0x5065616b456e76656c6f706544617461, some 0x3d31, 0x0410020000000000060e2b3401040101, true, false⟩ /- PeakEnvelopeData -/]⟩ /- PCMDescriptor -/,
  ⟨0x506879736963616c44657363726970746f72, 0x0d01010101014900060e2b3402060101, some 0x0d01010101012400060e2b3402060101, false, []⟩ /- PhysicalDescriptor -/]

/-- Part of `baseClasses` (model/classdefs.py, `classdefs`). -/
def baseClasses6 : List CArgs := [
  ⟨0x496d706f727444657363726970746f72, 0x0d01010101014a00060e2b3402060101, some 0x0d01010101014900060e2b3402060101, true, []⟩ /- ImportDescriptor -/,
  ⟨0x5265636f7264696e6744657363726970746f72, 0x0d01010101014b00060e2b3402060101, some 0x0d01010101014900060e2b3402060101, true, []⟩ /- RecordingDescriptor -/,
  ⟨0x54616767656456616c7565446566696e6974696f6e, 0x0d01010101014c00060e2b3402060101, some 0x0d01010101011a00060e2b3402060101, true, []⟩ /- TaggedValueDefinition -/,
  ⟨0x4b4c5644617461446566696e6974696f6e, 0x0d01010101014d00060e2b3402060101, some 0x0d01010101011a00060e2b3402060101, true, [
    ⟨0x0601010401090000060e2b3401010107, 0x4b4c564461746154797065, some 0x4d12, 0x0501090000000000060e2b3401040101, true, false⟩ /- KLVDataType -/]⟩ /- KLVDataDefinition -/,
  ⟨0x417578696c6961727944657363726970746f72, 0x0d01010101014e00060e2b3402060101, some 0x0d01010101014900060e2b3402060101, true, [
    ⟨0x0409020100000000060e2b3401010107, 0x4d696d6554797065, some 0x4e11, 0x0110020000000000060e2b3401040101, false, false⟩ /- MimeType -/,
    ⟨0x0409030000000000060e2b3401010108, 0x43686172536574, some 0x4e12, 0x0110020000000000060e2b3401040101, true, false⟩ /- CharSet -/]⟩ /- AuxiliaryDescriptor -/,
  ⟨0x524946464368756e6b, 0x0d01010101014f00060e2b3402060101, some 0x0d01010101010100060e2b3402060101, true, [
    ⟨0x0406080200000000060e2b3401010108, 0x4368756e6b4944, some 0x4f01, 0x0101030000000000060e2b3401040101, false, false⟩ /- ChunkID -/,
    ⟨0x0406090300000000060e2b3401010108, 0x4368756e6b4c656e677468, some 0x4f02, 0x0101030000000000060e2b3401040101, false, false⟩ /- ChunkLength -/,
    ⟨0x0407040000000000060e2b3401010108, 0x4368756e6b44617461, some 0x4f03, 0x0410020000000000060e2b3401040101, false, false⟩ /- ChunkData -/]⟩ /- RIFFChunk -/,
  ⟨0x425746496d706f727444657363726970746f72, 0x0d01010101015000060e2b3402060101, some 0x0d01010101014a00060e2b3402060101, true, [
    ⟨0x0402030205000000060e2b3401010105, 0x516c747946696c6553656375726974795265706f7274, some 0x3d15, 0x0101030000000000060e2b3401040101, true, false⟩ /- QltyFileSecurityReport -/,
    ⟨0x0402030206000000060e2b3401010105, 0x516c747946696c65536563757269747957617665, some 0x3d16, 0x0101030000000000060e2b3401040101, true, false⟩ /- QltyFileSecurityWave -/,
    ⟨0x0402050201010000060e2b3401010105, 0x42657874436f64696e67486973746f7279, some 0x3d21, 0x0110020000000000060e2b3401040101, true, false⟩ /- BextCodingHistory -/,
    ⟨0x0402050202010000060e2b3401010105, 0x516c7479426173696344617461, some 0x3d22, 0x0110020000000000060e2b3401040101, true, false⟩ /- QltyBasicData -/,
    ⟨0x0402050203010000060e2b3401010105, 0x516c747953746172744f664d6f64756c6174696f6e, some 0x3d23, 0x0110020000000000060e2b3401040101, true, false⟩ /- QltyStartOfModulation -/,
    ⟨0x0402050204010000060e2b3401010105, 0x516c74795175616c6974794576656e74, some 0x3d24, 0x0110020000000000060e2b3401040101, true, false⟩ /- QltyQualityEvent -/,
    ⟨0x0402050205010000060e2b3401010105, 0x516c7479456e644f664d6f64756c6174696f6e, some 0x3d25, 0x0110020000000000060e2b3401040101, true, false⟩ /- QltyEndOfModulation -/,
    ⟨0x0402050206010000060e2b3401010105, 0x516c74795175616c697479506172616d65746572, some 0x3d26, 0x0110020000000000060e2b3401040101, true, false⟩ /- QltyQualityParameter -/,
    ⟨0x0402050207010000060e2b3401010105, 0x516c74794f70657261746f72436f6d6d656e74, some 0x3d27, 0x0110020000000000060e2b3401040101, true, false⟩ /- QltyOperatorComment -/,
    ⟨0x0402050208010000060e2b3401010105, 0x516c74794375655368656574, some 0x3d28, 0x0110020000000000060e2b3401040101, true, false⟩ /- QltyCueSheet -/,
    ⟨0x06010104060f0000060e2b3401010108, 0x556e6b6e6f776e4257464368756e6b73, some 0x3d33, 0x05060c0000000000060e2b3401040101, true, false⟩ /- UnknownBWFChunks -/]⟩ /- BWFImportDescriptor -/,
  ⟨0x4d504547566964656f44657363726970746f72, 0x0d01010101015100060e2b3402060101, some 0x0d01010101012800060e2b3402060101, true, [
    ⟨0x0401060201020000060e2b3401010105, 0x53696e676c6553657175656e6365, none, 0x0104010000000000060e2b3401040101, true, false⟩ /- SingleSequence -/,
    ⟨0x0401060201030000060e2b3401010105, 0x436f6e7374616e744250696374757265436f756e74, none, 0x0104010000000000060e2b3401040101, true, false⟩ /- ConstantBPictureCount -/,
    ⟨0x0401060201040000060e2b3401010105, 0x436f646564436f6e74656e745363616e6e696e67, none, 0x0201012a00000000060e2b3401040101, true, false⟩ /- CodedContentScanning -/,
    ⟨0x0401060201050000060e2b3401010105, 0x4c6f7744656c6179, none, 0x0104010000000000060e2b3401040101, true, false⟩ /- LowDelay -/,
    ⟨0x0401060201060000060e2b3401010105, 0x436c6f736564474f50, none, 0x0104010000000000060e2b3401040101, true, false⟩ /- ClosedGOP -/,
    ⟨0x0401060201070000060e2b3401010105, 0x4964656e746963616c474f50, none, 0x0104010000000000060e2b3401040101, true, false⟩ /- IdenticalGOP -/,
    ⟨0x0401060201080000060e2b3401010105, 0x4d6178474f50, none, 0x0101020000000000060e2b3401040101, true, false⟩ /- MaxGOP -/,
    ⟨0x0401060201090000060e2b3401010105, 0x4d61784250696374757265436f756e74, none, 0x0101020000000000060e2b3401040101, true, false⟩ /- MaxBPictureCount -/,
    ⟨0x04010602010b0000060e2b3401010105, 0x42697452617465, none, 0x0101030000000000060e2b3401040101, true, false⟩ /- BitRate -/,
    ⟨0x04010602010a0000060e2b3401010105, 0x50726f66696c65416e644c6576656c, none, 0x0101010000000000060e2b3401040101, true, false⟩ /- ProfileAndLevel -/]⟩ /- MPEGVideoDescriptor -/,
  ⟨0x436c617373446566696e6974696f6e, 0x0d01010102010000060e2b3402060101, some 0x0d01010102240000060e2b3402060101, true, [
    ⟨0x0601010701000000060e2b3401010102, 0x506172656e74436c617373, some 0x0008, 0x0501010000000000060e2b3401040101, false, false⟩ /- ParentClass -/,
    ⟨0x0601010702000000060e2b3401010102, 0x50726f70657274696573, some 0x0009, 0x05050b0000000000060e2b3401040101, true, false⟩ /- Properties -/,
    ⟨0x0601010703000000060e2b3401010102, 0x4973436f6e6372657465, some 0x000a, 0x0104010000000000060e2b3401040101, false, false⟩ /- IsConcrete -/]⟩ /- ClassDefinition -/,
  ⟨0x50726f7065727479446566696e6974696f6e, 0x0d01010102020000060e2b3402060101, some 0x0d01010102240000060e2b3402060101, true, [
    ⟨0x0601010704000000060e2b3401010102, 0x54797065, some 0x000b, 0x0103010000000000060e2b3401040101, false, false⟩ /- Type -/,
    ⟨0x0301020201000000060e2b3401010102, 0x49734f7074696f6e616c, some 0x000c, 0x0104010000000000060e2b3401040101, false, false⟩ /- IsOptional -/,
    ⟨0x0601010705000000060e2b3401010102, 0x4c6f63616c4964656e74696669636174696f6e, some 0x000d, 0x0101020000000000060e2b3401040101, false, false⟩ /- LocalIdentification -/,
    ⟨0x0601010706000000060e2b3401010102, 0x4973556e697175654964656e746966696572, some 0x000e, 0x0104010000000000060e2b3401040101, true, false⟩ /- IsUniqueIdentifier -/]⟩ /- PropertyDefinition -/,
  ⟨0x54797065446566696e6974696f6e, 0x0d01010102030000060e2b3402060101, some 0x0d01010102240000060e2b3402060101, false, []⟩ /- TypeDefinition -/,
  ⟨0x54797065446566696e6974696f6e496e7465676572, 0x0d01010102040000060e2b3402060101, some 0x0d01010102030000060e2b3402060101, true, [
    ⟨0x0301020301000000060e2b3401010102, 0x53697a65, some 0x000f, 0x0101010000000000060e2b3401040101, false, false⟩ /- Size -/,
    ⟨0x0301020302000000060e2b3401010102, 0x49735369676e6564, some 0x0010, 0x0104010000000000060e2b3401040101, false, false⟩ /- IsSigned -/]⟩ /- TypeDefinitionInteger -/]

/-- Part of `baseClasses` (model/classdefs.py, `classdefs`). -/
def baseClasses7 : List CArgs := [
  ⟨0x54797065446566696e6974696f6e5374726f6e674f626a6563745265666572656e6365, 0x0d01010102050000060e2b3402060101, some 0x0d01010102030000060e2b3402060101, true, [
    ⟨0x0601010709000000060e2b3401010102, 0x5265666572656e63656454797065, some 0x0011, 0x0501010000000000060e2b3401040101, false, false⟩ /- ReferencedType -/]⟩ /- TypeDefinitionStrongObjectReference -/,
  ⟨0x54797065446566696e6974696f6e5765616b4f626a6563745265666572656e6365, 0x0d01010102060000060e2b3402060101, some 0x0d01010102030000060e2b3402060101, true, [
    ⟨0x060101070a000000060e2b3401010102, 0x5265666572656e63656454797065, some 0x0012, 0x0501010000000000060e2b3401040101, false, false⟩ /- ReferencedType -/,
    ⟨0x030102030b000000060e2b3401010102, 0x546172676574536574, some 0x0013, 0x0401060000000000060e2b3401040101, false, false⟩ /- TargetSet -/]⟩ /- TypeDefinitionWeakObjectReference -/,
  ⟨0x54797065446566696e6974696f6e456e756d65726174696f6e, 0x0d01010102070000060e2b3402060101, some 0x0d01010102030000060e2b3402060101, true, [
    ⟨0x060101070b000000060e2b3401010102, 0x456c656d656e7454797065, some 0x0014, 0x0501090000000000060e2b3401040101, false, false⟩ /- ElementType -/,
    ⟨0x0301020304000000060e2b3401010102, 0x456c656d656e744e616d6573, some 0x0015, 0x0401050000000000060e2b3401040101, false, false⟩ /- ElementNames -/,
    ⟨0x0301020305000000060e2b3401010102, 0x456c656d656e7456616c756573, some 0x0016, 0x0401040000000000060e2b3401040101, false, false⟩ /- ElementValues -/]⟩ /- TypeDefinitionEnumeration -/,
  ⟨0x53756244657363726970746f72, 0x0d01010101015900060e2b3402060101, some 0x0d01010101010100060e2b3402060101, false, []⟩ /- SubDescriptor -/,
  ⟨0x4a5045473230303053756244657363726970746f72, 0x0d01010101015a00060e2b3402060101, some 0x0d01010101015900060e2b3402060101, true, [
    ⟨0x0401060301000000060e2b340101010a, 0x5273697a, none, 0x0101020000000000060e2b3401040101, false, false⟩ /- Rsiz -/,
    ⟨0x0401060302000000060e2b340101010a, 0x5873697a, none, 0x0101030000000000060e2b3401040101, false, false⟩ /- Xsiz -/,
    ⟨0x0401060303000000060e2b340101010a, 0x5973697a, none, 0x0101030000000000060e2b3401040101, false, false⟩ /- Ysiz -/,
    ⟨0x0401060304000000060e2b340101010a, 0x584f73697a, none, 0x0101030000000000060e2b3401040101, false, false⟩ /- XOsiz -/,
    ⟨0x0401060305000000060e2b340101010a, 0x594f73697a, none, 0x0101030000000000060e2b3401040101, false, false⟩ /- YOsiz -/,
    ⟨0x0401060306000000060e2b340101010a, 0x585473697a, none, 0x0101030000000000060e2b3401040101, false, false⟩ /- XTsiz -/,
    ⟨0x0401060307000000060e2b340101010a, 0x595473697a, none, 0x0101030000000000060e2b3401040101, false, false⟩ /- YTsiz -/,
    ⟨0x0401060308000000060e2b340101010a, 0x58544f73697a, none, 0x0101030000000000060e2b3401040101, false, false⟩ /- XTOsiz -/,
    ⟨0x0401060309000000060e2b340101010a, 0x59544f73697a, none, 0x0101030000000000060e2b3401040101, false, false⟩ /- YTOsiz -/,
    ⟨0x040106030a000000060e2b340101010a, 0x4373697a, none, 0x0101020000000000060e2b3401040101, false, false⟩ /- Csiz -/,
    ⟨0x040106030b000000060e2b340101010a, 0x50696374757265436f6d706f6e656e7453697a696e67, none, 0x0401010000000000060e2b3401040101, false, false⟩ /- PictureComponentSizing -/,
    ⟨0x040106030c000000060e2b340101010a, 0x436f64696e675374796c6544656661756c74, none, 0x0410010000000000060e2b3401040101, true, false⟩ /- CodingStyleDefault -/,
    ⟨0x040106030d000000060e2b340101010a, 0x5175616e74697a6174696f6e44656661756c74, none, 0x0410010000000000060e2b3401040101, true, false⟩ /- QuantizationDefault -/,
    ⟨0x040106030e000000060e2b340101010e, 0x4a32434c61796f7574, none, 0x0402010000000000060e2b3401040101, true, false⟩ /- J2CLayout -/]⟩ /- JPEG2000SubDescriptor -/,
  ⟨0x5642494461746144657363726970746f72, 0x0d01010101015b00060e2b3402060101, some 0x0d01010101014300060e2b3402060101, true, []⟩ /- VBIDataDescriptor -/,
  ⟨0x414e434461746144657363726970746f72, 0x0d01010101015c00060e2b3402060101, some 0x0d01010101014300060e2b3402060101, true, []⟩ /- ANCDataDescriptor -/,
  ⟨0x436f6e7461696e6572436f6e73747261696e747353756244657363726970746f72, 0x0d01010101016700060e2b3402060101, some 0x0d01010101015900060e2b3402060101, true, []⟩ /- ContainerConstraintsSubDescriptor -/,
  ⟨0x4d5045473456697375616c53756244657363726970746f72, 0x0d01010101016800060e2b3402060101, some 0x0d01010101015900060e2b3402060101, true, [
    ⟨0x0401060202020000060e2b340101010d, 0x4d5045473456697375616c53696e676c6553657175656e6365, none, 0x0104010000000000060e2b3401040101, true, false⟩ /- MPEG4VisualSingleSequence -/,
    ⟨0x0401060202030000060e2b340101010d, 0x4d5045473456697375616c436f6e7374616e7442564f5073, none, 0x0104010000000000060e2b3401040101, true, false⟩ /- MPEG4VisualConstantBVOPs -/,
    ⟨0x0401060202040000060e2b340101010d, 0x4d5045473456697375616c436f646564436f6e74656e7454797065, none, 0x0201012d00000000060e2b3401040101, true, false⟩ /- MPEG4VisualCodedContentType -/,
    ⟨0x0401060202050000060e2b340101010d, 0x4d5045473456697375616c4c6f7744656c6179, none, 0x0104010000000000060e2b3401040101, true, false⟩ /- MPEG4VisualLowDelay -/,
    ⟨0x0401060202060000060e2b340101010d, 0x4d5045473456697375616c436c6f736564474f56, none, 0x0104010000000000060e2b3401040101, true, false⟩ /- MPEG4VisualClosedGOV -/,
    ⟨0x0401060202070000060e2b340101010d, 0x4d5045473456697375616c4964656e746963616c474f56, none, 0x0104010000000000060e2b3401040101, true, false⟩ /- MPEG4VisualIdenticalGOV -/,
    ⟨0x0401060202080000060e2b340101010d, 0x4d5045473456697375616c4d6178474f56, none, 0x0101020000000000060e2b3401040101, true, false⟩ /- MPEG4VisualMaxGOV -/,
    ⟨0x0401060202090000060e2b340101010d, 0x4d5045473456697375616c42564f50436f756e74, none, 0x0101020000000000060e2b3401040101, true, false⟩ /- MPEG4VisualBVOPCount -/,
    ⟨0x04010602020a0000060e2b340101010d, 0x4d5045473456697375616c50726f66696c65416e644c6576656c, none, 0x0101010000000000060e2b3401040101, true, false⟩ /- MPEG4VisualProfileAndLevel -/,
    ⟨0x04010602020b0000060e2b340101010d, 0x4d5045473456697375616c42697452617465, none, 0x0101030000000000060e2b3401040101, true, false⟩ /- MPEG4VisualBitRate -/]⟩ /- MPEG4VisualSubDescriptor -/,
  ⟨0x4d43414c6162656c53756244657363726970746f72, 0x0d01010101016a00060e2b3402060101, some 0x0d01010101015900060e2b3402060101, false, [
    ⟨0x0103070101000000060e2b340101010e, 0x4d43414c6162656c44696374696f6e6172794944, none, 0x0103010000000000060e2b3401040101, false, false⟩ /- MCALabelDictionaryID -/,
    ⟨0x0103070105000000060e2b340101010e, 0x4d43414c696e6b4944, none, 0x0103030000000000060e2b3401040101, false, false⟩ /- MCALinkID -/,
    ⟨0x0103070102000000060e2b340101010e, 0x4d434154616753796d626f6c, none, 0x0110020000000000060e2b3401040101, false, false⟩ /- MCATagSymbol -/,
    ⟨0x0103070103000000060e2b340101010e, 0x4d43415461674e616d65, none, 0x0110020000000000060e2b3401040101, true, false⟩ /- MCATagName -/,
    ⟨0x0103040a00000000060e2b340101010e, 0x4d43414368616e6e656c4944, none, 0x0101030000000000060e2b3401040101, true, false⟩ /- MCAChannelID -/,
    ⟨0x0301010203150000060e2b340101010d, 0x5246433536343653706f6b656e4c616e6775616765, none, 0x0110040000000000060e2b3401040101, true, false⟩ /- RFC5646SpokenLanguage -/,
    ⟨0x0105100000000000060e2b340101010e, 0x4d43415469746c65, none, 0x0110020000000000060e2b3401040101, true, false⟩ /- MCATitle -/,
    ⟨0x0105110000000000060e2b340101010e, 0x4d43415469746c6556657273696f6e, none, 0x0110020000000000060e2b3401040101, true, false⟩ /- MCATitleVersion -/,
    ⟨0x0105120000000000060e2b340101010e, 0x4d43415469746c6553756256657273696f6e, none, 0x0110020000000000060e2b3401040101, true, false⟩ /- MCATitleSubVersion -/,
    ⟨0x0105130000000000060e2b340101010e, 0x4d4341457069736f6465, none, 0x0110020000000000060e2b3401040101, true, false⟩ /- MCAEpisode -/,
    ⟨0x0104010500000000060e2b340101010e, 0x4d4341506172746974696f6e4b696e64, none, 0x0110020000000000060e2b3401040101, true, false⟩ /- MCAPartitionKind -/,
    ⟨0x0104010600000000060e2b340101010e, 0x4d4341506172746974696f6e4e756d626572, none, 0x0110020000000000060e2b3401040101, true, false⟩ /- MCAPartitionNumber -/,
    ⟨0x0302010220000000060e2b340101010e, 0x4d4341417564696f436f6e74656e744b696e64, none, 0x0110020000000000060e2b3401040101, true, false⟩ /- MCAAudioContentKind -/,
    ⟨0x0302010221000000060e2b340101010e, 0x4d4341417564696f456c656d656e744b696e64, none, 0x0110020000000000060e2b3401040101, true, false⟩ /- MCAAudioElementKind -/]⟩ /- MCALabelSubDescriptor -/,
  ⟨0x417564696f4368616e6e656c4c6162656c53756244657363726970746f72, 0x0d01010101016b00060e2b3402060101, some 0x0d01010101016a00060e2b3402060101, true, [
    ⟨0x0103070106000000060e2b340101010e, 0x536f756e646669656c6447726f75704c696e6b4944, none, 0x0103030000000000060e2b3401040101, true, false⟩ /- SoundfieldGroupLinkID -/]⟩ /- AudioChannelLabelSubDescriptor -/,
  ⟨0x536f756e646669656c6447726f75704c6162656c53756244657363726970746f72, 0x0d01010101016c00060e2b3402060101, some 0x0d01010101016a00060e2b3402060101, true, [
    ⟨0x0103070104000000060e2b340101010e, 0x47726f75704f66536f756e646669656c6447726f7570734c696e6b4944, none, 0x0401150000000000060e2b3401040101, true, false⟩ /- GroupOfSoundfieldGroupsLinkID -/]⟩ /- SoundfieldGroupLabelSubDescriptor -/]

/-- Part of `baseClasses` (model/classdefs.py, `classdefs`). -/
def baseClasses8 : List CArgs := [
  ⟨0x47726f75704f66536f756e646669656c6447726f7570734c6162656c53756244657363726970746f72, 0x0d01010101016d00060e2b3402060101, some 0x0d01010101016a00060e2b3402060101, true, []⟩ /- GroupOfSoundfieldGroupsLabelSubDescriptor -/,
  ⟨0x41564353756244657363726970746f72, 0x0d01010101016e00060e2b3402060101, some 0x0d01010101015900060e2b3402060101, true, [
    ⟨0x0401060601030000060e2b340101010e, 0x415643436f6e7374616e744250696374757265466c6167, none, 0x0104010000000000060e2b3401040101, true, false⟩ /- AVCConstantBPictureFlag -/,
    ⟨0x0401060601040000060e2b340101010e, 0x415643436f646564436f6e74656e744b696e64, none, 0x0201012c00000000060e2b3401040101, true, false⟩ /- AVCCodedContentKind -/,
    ⟨0x0401060601060000060e2b340101010e, 0x415643436c6f736564474f50496e64696361746f72, none, 0x0104010000000000060e2b3401040101, true, false⟩ /- AVCClosedGOPIndicator -/,
    ⟨0x0401060601070000060e2b340101010e, 0x4156434964656e746963616c474f50496e64696361746f72, none, 0x0104010000000000060e2b3401040101, true, false⟩ /- AVCIdenticalGOPIndicator -/,
    ⟨0x0401060601080000060e2b340101010e, 0x4156434d6178696d756d474f5053697a65, none, 0x0101020000000000060e2b3401040101, true, false⟩ /- AVCMaximumGOPSize -/,
    ⟨0x0401060601090000060e2b340101010e, 0x4156434d6178696d756d4250696374757265436f756e74, none, 0x0101020000000000060e2b3401040101, true, false⟩ /- AVCMaximumBPictureCount -/,
    ⟨0x04010606010a0000060e2b340101010e, 0x41564350726f66696c65, none, 0x0101010000000000060e2b3401040101, true, false⟩ /- AVCProfile -/,
    ⟨0x04010606010b0000060e2b340101010e, 0x4156434d6178696d756d42697452617465, none, 0x0101030000000000060e2b3401040101, true, false⟩ /- AVCMaximumBitRate -/,
    ⟨0x04010606010c0000060e2b340101010e, 0x41564350726f66696c65436f6e73747261696e74, none, 0x0101010000000000060e2b3401040101, true, false⟩ /- AVCProfileConstraint -/,
    ⟨0x04010606010d0000060e2b340101010e, 0x4156434c6576656c, none, 0x0101010000000000060e2b3401040101, true, false⟩ /- AVCLevel -/,
    ⟨0x04010606010e0000060e2b340101010e, 0x4156434465636f64696e6744656c6179, none, 0x0101010000000000060e2b3401040101, false, false⟩ /- AVCDecodingDelay -/,
    ⟨0x04010606010f0000060e2b340101010e, 0x4156434d6178696d756d5265664672616d6573, none, 0x0101010000000000060e2b3401040101, true, false⟩ /- AVCMaximumRefFrames -/,
    ⟨0x0401060601100000060e2b340101010e, 0x41564353657175656e6365506172616d65746572536574466c6167, none, 0x0101010000000000060e2b3401040101, true, false⟩ /- AVCSequenceParameterSetFlag -/,
    ⟨0x0401060601110000060e2b340101010e, 0x41564350696374757265506172616d65746572536574466c6167, none, 0x0101010000000000060e2b3401040101, true, false⟩ /- AVCPictureParameterSetFlag -/,
    ⟨0x0401060601140000060e2b340101010e, 0x4156434176657261676542697452617465, none, 0x0101030000000000060e2b3401040101, true, false⟩ /- AVCAverageBitRate -/]⟩ /- AVCSubDescriptor -/,
  ⟨0x4d504547417564696f44657363726970746f72, 0x0d01010101015e00060e2b3402060101, some 0x0d01010101014200060e2b3402060101, true, [
    ⟨0x0402040301020000060e2b340101010a, 0x4d504547417564696f42697452617465, none, 0x0101030000000000060e2b3401040101, true, false⟩ /- MPEGAudioBitRate -/]⟩ /- MPEGAudioDescriptor -/,
  ⟨0x54797065446566696e6974696f6e46697865644172726179, 0x0d01010102080000060e2b3402060101, some 0x0d01010102030000060e2b3402060101, true, [
    ⟨0x060101070c000000060e2b3401010102, 0x456c656d656e7454797065, some 0x0017, 0x0501090000000000060e2b3401040101, false, false⟩ /- ElementType -/,
    ⟨0x0301020303000000060e2b3401010102, 0x456c656d656e74436f756e74, some 0x0018, 0x0101030000000000060e2b3401040101, false, false⟩ /- ElementCount -/]⟩ /- TypeDefinitionFixedArray -/,
  ⟨0x54797065446566696e6974696f6e5661726961626c654172726179, 0x0d01010102090000060e2b3402060101, some 0x0d01010102030000060e2b3402060101, true, [
    ⟨0x060101070d000000060e2b3401010102, 0x456c656d656e7454797065, some 0x0019, 0x0501090000000000060e2b3401040101, false, false⟩ /- ElementType -/]⟩ /- TypeDefinitionVariableArray -/,
  ⟨0x54797065446566696e6974696f6e536574, 0x0d010101020a0000060e2b3402060101, some 0x0d01010102030000060e2b3402060101, true, [
    ⟨0x060101070e000000060e2b3401010102, 0x456c656d656e7454797065, some 0x001a, 0x0501090000000000060e2b3401040101, false, false⟩ /- ElementType -/]⟩ /- TypeDefinitionSet -/,
  ⟨0x54797065446566696e6974696f6e537472696e67, 0x0d010101020b0000060e2b3402060101, some 0x0d01010102030000060e2b3402060101, true, [
    ⟨0x060101070f000000060e2b3401010102, 0x456c656d656e7454797065, some 0x001b, 0x0501090000000000060e2b3401040101, false, false⟩ /- ElementType -/]⟩ /- TypeDefinitionString -/,
  ⟨0x54797065446566696e6974696f6e53747265616d, 0x0d010101020c0000060e2b3402060101, some 0x0d01010102030000060e2b3402060101, true, []⟩ /- TypeDefinitionStream -/,
  ⟨0x54797065446566696e6974696f6e5265636f7264, 0x0d010101020d0000060e2b3402060101, some 0x0d01010102030000060e2b3402060101, true, [
    ⟨0x0601010711000000060e2b3401010102, 0x4d656d6265725479706573, some 0x001c, 0x0504020000000000060e2b3401040101, false, false⟩ /- MemberTypes -/,
    ⟨0x0301020306000000060e2b3401010102, 0x4d656d6265724e616d6573, some 0x001d, 0x0401050000000000060e2b3401040101, false, false⟩ /- MemberNames -/]⟩ /- TypeDefinitionRecord -/,
  ⟨0x54797065446566696e6974696f6e52656e616d65, 0x0d010101020e0000060e2b3402060101, some 0x0d01010102030000060e2b3402060101, true, [
    ⟨0x0601010712000000060e2b3401010102, 0x52656e616d656454797065, some 0x001e, 0x0501090000000000060e2b3401040101, false, false⟩ /- RenamedType -/]⟩ /- TypeDefinitionRename -/,
  ⟨0x54797065446566696e6974696f6e457874656e6469626c65456e756d65726174696f6e, 0x0d01010102200000060e2b3402060101, some 0x0d01010102030000060e2b3402060101, true, [
    ⟨0x0301020307000000060e2b3401010102, 0x456c656d656e744e616d6573, some 0x001f, 0x0401050000000000060e2b3401040101, false, false⟩ /- ElementNames -/,
    ⟨0x0301020308000000060e2b3401010102, 0x456c656d656e7456616c756573, some 0x0020, 0x0401060000000000060e2b3401040101, false, false⟩ /- ElementValues -/]⟩ /- TypeDefinitionExtendibleEnumeration -/,
  ⟨0x54797065446566696e6974696f6e496e646972656374, 0x0d01010102210000060e2b3402060101, some 0x0d01010102030000060e2b3402060101, true, []⟩ /- TypeDefinitionIndirect -/]

/-- Part of `baseClasses` (model/classdefs.py, `classdefs`). -/
def baseClasses9 : List CArgs := [
  ⟨0x54797065446566696e6974696f6e4f7061717565, 0x0d01010102220000060e2b3402060101, some 0x0d01010102210000060e2b3402060101, true, []⟩ /- TypeDefinitionOpaque -/,
  ⟨0x54797065446566696e6974696f6e436861726163746572, 0x0d01010102230000060e2b3402060101, some 0x0d01010102030000060e2b3402060101, true, []⟩ /- TypeDefinitionCharacter -/,
  ⟨0x54797065446566696e6974696f6e47656e65726963436861726163746572, 0x0e04010100000000060e2b3402060101, some 0x0d01010102030000060e2b3402060101, true, [
    ⟨0x0e04010101010111060e2b3401010101, 0x43686172616374657253697a65, none, 0x0101010000000000060e2b3401040101, false, false⟩ /- CharacterSize -/]⟩ /- TypeDefinitionGenericCharacter -/,
  ⟨0x4d657461446566696e6974696f6e, 0x0d01010102240000060e2b3402060101, none, false, [
    ⟨0x0601010713000000060e2b3401010102, 0x4964656e74696669636174696f6e, some 0x0005, 0x0103010000000000060e2b3401040101, false, true⟩ /- Identification -/,
    ⟨0x0302040102010000060e2b3401010102, 0x4e616d65, some 0x0006, 0x0110020000000000060e2b3401040101, false, false⟩ /- Name -/,
    ⟨0x0601010714010000060e2b3401010102, 0x4465736372697074696f6e, some 0x0007, 0x0110020000000000060e2b3401040101, true, false⟩ /- Description -/]⟩ /- MetaDefinition -/,
  ⟨0x4d65746144696374696f6e617279, 0x0d01010102250000060e2b3402060101, none, true, [
    ⟨0x0601010707000000060e2b3401010102, 0x436c617373446566696e6974696f6e73, some 0x0003, 0x0505010000000000060e2b3401040101, true, false⟩ /- ClassDefinitions -/,
    ⟨0x0601010708000000060e2b3401010102, 0x54797065446566696e6974696f6e73, some 0x0004, 0x05050c0000000000060e2b3401040101, true, false⟩ /- TypeDefinitions -/]⟩ /- MetaDictionary -/,
  ⟨0x44657363726970746976654f626a656374, 0x0d01040000000000060e2b3402060101, some 0x0d01010101010100060e2b3402060101, false, []⟩ /- DescriptiveObject -/,
  ⟨0x44657363726970746976654672616d65776f726b, 0x0d01040100000000060e2b3402060101, some 0x0d01010101010100060e2b3402060101, false, []⟩ /- DescriptiveFramework -/]

/-- model/classdefs.py, `classdefs` -/
def baseClasses : List CArgs := baseClasses0 ++ baseClasses1 ++ baseClasses2 ++ baseClasses3 ++ baseClasses4 ++ baseClasses5 ++ baseClasses6 ++ baseClasses7 ++ baseClasses8 ++ baseClasses9

/-- Part of `extClasses` (model/ext/classdefs.py, `classdefs`). -/
def extClasses0 : List CArgs := [
  ⟨0x436f6d6d656e744d61726b6572, 0x0d01010101010800060e2b3402060101, some 0x0d01010101010600060e2b3402060101, true, [
    ⟨0x6d64dd66e5c7488fb0e4272c932378a6, 0x436f6d6d656e744d61726b6572416e6e6f746174696f6e4c697374, none, 0x0110020000000000060e2b3401040101, true, false⟩ /- CommentMarkerAnnotationList -/,
    ⟨0xc72cc817aac5499baf34bc47fec1eaa8, 0x436f6d6d656e744d61726b65724174747269627574654c697374, none, 0x0506080000000000060e2b3401040101, true, false⟩ /- CommentMarkerAttributeList -/,
    ⟨0xe96e6d44c38311d3a069006094eb75cb, 0x436f6d6d656e744d61726b6572436f6c6f72, none, 0xe96e6d43c38311d3a069006094eb75cb, true, false⟩ /- CommentMarkerColor -/,
    ⟨0xc4c45d9b096711d4a08a006094eb75cb, 0x436f6d6d656e744d61726b657244617465, none, 0x0110020000000000060e2b3401040101, true, false⟩ /- CommentMarkerDate -/,
    ⟨0xc4c45d9d096711d4a08a006094eb75cb, 0x436f6d6d656e744d61726b657249636f6e, none, 0x0101070000000000060e2b3401040101, true, false⟩ /- CommentMarkerIcon -/,
    ⟨0xc4c45d9e096711d4a08a006094eb75cb, 0x436f6d6d656e744d61726b6572537461747573, none, 0x0101070000000000060e2b3401040101, true, false⟩ /- CommentMarkerStatus -/,
    ⟨0xc4c45d9c096711d4a08a006094eb75cb, 0x436f6d6d656e744d61726b657254696d65, none, 0x0110020000000000060e2b3401040101, true, false⟩ /- CommentMarkerTime -/,
    ⟨0xc4c45d9a096711d4a08a006094eb75cb, 0x436f6d6d656e744d61726b657255736572, none, 0x0110020000000000060e2b3401040101, true, false⟩ /- CommentMarkerUser -/]⟩ /- CommentMarker -/,
  ⟨0x5461706544657363726970746f72, 0x0d01010101012e00060e2b3402060101, some 0x0d01010101012400060e2b3402060101, true, [
    ⟨0x9548b03a15fb11d4a08f006094eb75cb, 0x436f6c6f724672616d65, none, 0x0101070000000000060e2b3401040101, true, false⟩ /- ColorFrame -/]⟩ /- TapeDescriptor -/,
  ⟨0x50434d44657363726970746f72, 0x0d01010101014800060e2b3402060101, some 0x0d01010101014200060e2b3402060101, true, [
    ⟨0xbb3fabddfcc043a89759c727771fcc4a, 0x446174614f6666736574, none, 0x0101070000000000060e2b3401040101, true, false⟩ /- DataOffset -/]⟩ /- PCMDescriptor -/,
  ⟨0x4344434944657363726970746f72, 0x0d01010101012800060e2b3402060101, some 0x0d01010101012700060e2b3402060101, true, [
    ⟨0x506f8de554a111d3a029006094eb75cb, 0x496d6167655374617274416c69676e6d656e74, none, 0x0101030000000000060e2b3401040101, true, false⟩ /- ImageStartAlignment -/,
    ⟨0x9d15fca354c511d3a029006094eb75cb, 0x4f6666736574546f4672616d65496e6465786573, none, 0x0101070000000000060e2b3401040101, true, false⟩ /- OffsetToFrameIndexes -/,
    ⟨0x298eb26030b64e308c90cf63aa793c34, 0x4f6666736574546f4672616d65496e64657865733634, none, 0x0101080000000000060e2b3401040101, true, false⟩ /- OffsetToFrameIndexes64 -/]⟩ /- CDCIDescriptor -/,
  ⟨0x4469676974616c496d61676544657363726970746f72, 0x0d01010101012700060e2b3402060101, some 0x0d01010101012500060e2b3402060101, false, [
    ⟨0x0e04010101010110060e2b3401010101, 0x41766964457373656e6365456c656d656e7453697a654b696e64, none, 0x0e04020101010000060e2b3401040101, true, false⟩ /- AvidEssenceElementSizeKind -/,
    ⟨0xbfde81e4bcc84abda80e214dc0f14684, 0x446174614f6666736574, none, 0x0101070000000000060e2b3401040101, true, false⟩ /- DataOffset -/,
    ⟨0x0e04010101010107060e2b3401010101, 0x457373656e6365426f78, none, 0x0e04030102000000060e2b3401040101, true, false⟩ /- EssenceBox -/,
    ⟨0xce2aca4e51ab11d3a024006094eb75cb, 0x46697273744672616d654f6666736574, none, 0x0101070000000000060e2b3401040101, true, false⟩ /- FirstFrameOffset -/,
    ⟨0xb57e925d170d11d4a08f006094eb75cb, 0x4672616d65496e646578427974654f72646572, none, 0x0101020000000000060e2b3401040101, true, false⟩ /- FrameIndexByteOrder -/,
    ⟨0xce2aca5051ab11d3a024006094eb75cb, 0x4672616d6553616d706c6553697a65, none, 0x0101070000000000060e2b3401040101, true, false⟩ /- FrameSampleSize -/,
    ⟨0xc8a0bd74a2474297a52c4458bffa1fc6, 0x4672616d6553746172744f6666736574, none, 0x0101070000000000060e2b3401040101, true, false⟩ /- FrameStartOffset -/,
    ⟨0x0e0401010101010c060e2b3401010101, 0x4672616d696e67426f78, none, 0x0e04030102000000060e2b3401040101, true, false⟩ /- FramingBox -/,
    ⟨0xce2aca4f51ab11d3a024006094eb75cb, 0x496d61676553697a65, none, 0x0101070000000000060e2b3401040101, true, false⟩ /- ImageSize -/,
    ⟨0xce2aca4d51ab11d3a024006094eb75cb, 0x5265736f6c7574696f6e4944, none, 0x0101070000000000060e2b3401040101, true, false⟩ /- ResolutionID -/,
    ⟨0x0e04010101010108060e2b3401010101, 0x536f75726365426f78, none, 0x0e04030102000000060e2b3401040101, true, false⟩ /- SourceBox -/,
    ⟨0x0e04010101010106060e2b3401010101, 0x56616c6964426f78, none, 0x0e04030102000000060e2b3401040101, true, false⟩ /- ValidBox -/]⟩ /- DigitalImageDescriptor -/,
  ⟨0x414e434461746144657363726970746f72, 0x0d01010101015c00060e2b3402060101, some 0x0d01010101014300060e2b3402060101, true, [
    ⟨0x0e04010101010105060e2b3401010101, 0x4d616e69666573744172726179, none, 0x0e04040201000000060e2b3401040101, true, false⟩ /- ManifestArray -/]⟩ /- ANCDataDescriptor -/,
  ⟨0x56617279696e6756616c7565, 0x0d01010101013e00060e2b3402060101, some 0x0d01010101013c00060e2b3402060101, true, [
    ⟨0x8f2b8baeb6854939b3a56373633b3e6c, 0x5656616c5f4578747261706f6c6174696f6e, none, 0x0103010000000000060e2b3401040101, true, false⟩ /- VVal_Extrapolation -/,
    ⟨0x2902558bacfa439ea1cd9fa1e8f891ef, 0x5656616c5f4669656c64436f756e74, none, 0x0101060000000000060e2b3401040101, true, false⟩ /- VVal_FieldCount -/]⟩ /- VaryingValue -/,
  ⟨0x44617461457373656e636544657363726970746f72, 0x0d01010101014300060e2b3402060101, some 0x0d01010101012500060e2b3402060101, true, [
    ⟨0x0e04010101010109060e2b3401010101, 0x446174614f6666736574, none, 0x0101070000000000060e2b3401040101, true, false⟩ /- DataOffset -/,
    ⟨0x0e04010101010102060e2b3401010101, 0x46697273744672616d654f6666736574, none, 0x0101070000000000060e2b3401040101, true, false⟩ /- FirstFrameOffset -/,
    ⟨0x0e04010101010104060e2b3401010101, 0x4d617853616d706c6553697a65, none, 0x0101070000000000060e2b3401040101, true, false⟩ /- MaxSampleSize -/,
    ⟨0x0e04010101010103060e2b3401010101, 0x4d696e53616d706c6553697a65, none, 0x0101070000000000060e2b3401040101, true, false⟩ /- MinSampleSize -/,
    ⟨0x0e04010101010101060e2b3401010101, 0x4f6666736574546f4672616d65496e6465786573, none, 0x0101080000000000060e2b3401040101, true, false⟩ /- OffsetToFrameIndexes -/]⟩ /- DataEssenceDescriptor -/,
  ⟨0x506172616d65746572, 0x0d01010101013c00060e2b3402060101, some 0x0d01010101010100060e2b3402060101, false, [
    ⟨0x0e0401010101010b060e2b3401010101, 0x4973456e61626c6564, none, 0x0104010000000000060e2b3401040101, true, false⟩ /- IsEnabled -/,
    ⟨0x967dbcc74ba64b57b8e83a0fbc550353, 0x497353696c656e74, none, 0x0104010000000000060e2b3401040101, true, false⟩ /- IsSilent -/]⟩ /- Parameter -/,
  ⟨0x53636f70655265666572656e6365, 0x0d01010101010d00060e2b3402060101, some 0x0d01010101010300060e2b3402060101, true, [
    ⟨0x9dc9c6cb479d4ff6988ab6784b90dc43, 0x417669642053636f7065, none, 0x0101030000000000060e2b3401040101, true, false⟩ /- Avid Scope -/]⟩ /- ScopeReference -/,
  ⟨0x436f6d706f6e656e74, 0x0d01010101010200060e2b3402060101, some 0x0d01010101010100060e2b3402060101, false, [
    ⟨0x6095818447b111d4a01c0004ac969f50, 0x436f6d706f6e656e744174747269627574654c697374, none, 0x0506080000000000060e2b3401040101, true, false⟩ /- ComponentAttributeList -/]⟩ /- Component -/,
  ⟨0x4d6f62, 0x0d01010101013400060e2b3402060101, some 0x0d01010101010100060e2b3402060101, false, [
    ⟨0xa5820034d0574f55a41ce95c41c2afaf, 0x416c745072696d6172794d6f62, none, 0x0104010000000000060e2b3401040101, true, false⟩ /- AltPrimaryMob -/,
    ⟨0x96c469924f6211d3a022006094eb75cb, 0x417070436f6465, none, 0x0101070000000000060e2b3401040101, true, false⟩ /- AppCode -/,
    ⟨0xd4243bd401424595a8f3f2eba54244de, 0x436f6e766572744672616d6552617465, none, 0x0104010000000000060e2b3401040101, true, false⟩ /- ConvertFrameRate -/,
    ⟨0x0e0401010101010f060e2b3401010101, 0x46696c654d6f6252617465, none, 0x0301010000000000060e2b3401040101, true, false⟩ /- FileMobRate -/,
    ⟨0x6095818347b111d4a01c0004ac969f50, 0x4d6f624174747269627574654c697374, none, 0x0506080000000000060e2b3401040101, true, false⟩ /- MobAttributeList -/,
    ⟨0xaa24b657fcbb4921951d3a2038396722, 0x537562636c6970426567696e, none, 0x0101080000000000060e2b3401040101, true, false⟩ /- SubclipBegin -/,
    ⟨0x1262bf7bfce24dfea0f6ceec047c80aa, 0x537562636c697046756c6c4c656e677468, none, 0x0101080000000000060e2b3401040101, true, false⟩ /- SubclipFullLength -/]⟩ /- Mob -/]

/-- Part of `extClasses` (model/ext/classdefs.py, `classdefs`). -/
def extClasses1 : List CArgs := [
  ⟨0x53756244657363726970746f72, 0x0d01010101015900060e2b3402060101, some 0x0d01010101010100060e2b3402060101, false, []⟩ /- SubDescriptor -/,
  ⟨0x536f75726365436c6970, 0x0d01010101011100060e2b3402060101, some 0x0d01010101011000060e2b3402060101, true, [
    ⟨0x660162e5bbef46188e0b4b149b661a12, 0x537562636c697046756c6c4c656e677468, none, 0x0101080000000000060e2b3401040101, true, false⟩ /- SubclipFullLength -/]⟩ /- SourceClip -/,
  ⟨0x457373656e636544657363726970746f72, 0x0d01010101012400060e2b3402060101, some 0x0d01010101010100060e2b3402060101, false, [
    ⟨0x13980e2b2f3044ecbdb03b730da56562, 0x4d65646961436f6e7461696e6572, none, 0x0110020000000000060e2b3401040101, true, false⟩ /- MediaContainer -/,
    ⟨0x9279041701314a05898d167691e11ca1, 0x4d65646961436f6e7461696e657247554944, none, 0x0103010000000000060e2b3401040101, true, false⟩ /- MediaContainerGUID -/,
    ⟨0x0601010406100000060e2b3401010109, 0x53756244657363726970746f7273, none, 0x05060e0000000000060e2b3401040101, true, false⟩ /- SubDescriptors -/]⟩ /- EssenceDescriptor -/,
  ⟨0x41766964547261636b4d616e547261636b6564506172616d436c617373, 0x30a42454069e11d49ffb0004ac969f50, some 0x0d01010101010100060e2b3402060101, true, [
    ⟨0x30a42453069e11d49ffb0004ac969f50, 0x544b4d4e547261636b6564506172616d5365746e6773, none, 0xccaa73d1f53811d3a081006094eb75cb, false, false⟩ /- TKMNTrackedParamSetngs -/]⟩ /- AvidTrackManTrackedParamClass -/,
  ⟨0x54696d656c696e654d6f62536c6f74, 0x0d01010101013b00060e2b3402060101, some 0x0d01010101013800060e2b3402060101, true, [
    ⟨0x107f833119144234b2c45a3eb755b7ca, 0x54696d656c696e654d6f624174747269627574654c697374, none, 0x0506080000000000060e2b3401040101, true, false⟩ /- TimelineMobAttributeList -/]⟩ /- TimelineMobSlot -/,
  ⟨0x436f6e74726f6c506f696e74, 0x0d01010101011900060e2b3402060101, some 0x0d01010101010100060e2b3402060101, true, [
    ⟨0x3c1b48d0c32c4ea9bb9d35b898527283, 0x436f6e74726f6c506f696e74506f696e7450726f70657274696573, none, 0x05060a0000000000060e2b3401040101, true, false⟩ /- ControlPointPointProperties -/,
    ⟨0x0e0401010101010a060e2b3401010101, 0x436f6e74726f6c506f696e74536f75726365, none, 0x0101070000000000060e2b3401040101, true, false⟩ /- ControlPointSource -/]⟩ /- ControlPoint -/,
  ⟨0x5472616e736974696f6e, 0x0d01010101011700060e2b3402060101, some 0x0d01010101010200060e2b3402060101, true, [
    ⟨0x2c04d7ec179d11d4a0030004ac969f50, 0x5472616e544b4d4e547261636b6564506172616d417279, none, 0xb56a2ec2fc3b11d39ff70004ac969f50, true, false⟩ /- TranTKMNTrackedParamAry -/,
    ⟨0x2c04d7ed179d11d4a0030004ac969f50, 0x5472616e544b4d4e547261636b6564506172616d5365746e6773, none, 0xccaa73d1f53811d3a081006094eb75cb, true, false⟩ /- TranTKMNTrackedParamSetngs -/,
    ⟨0x2c04d7eb179d11d4a0030004ac969f50, 0x5472616e544b4d4e547261636b657244617461417279, none, 0xb56a2ec3fc3b11d39ff70004ac969f50, true, false⟩ /- TranTKMNTrackerDataAry -/]⟩ /- Transition -/,
  ⟨0x54616767656456616c7565, 0x0d01010101013f00060e2b3402060101, some 0x0d01010101010100060e2b3402060101, true, [
    ⟨0xb6bb5f4e7b3711d3a044006094eb75cb, 0x506f727461626c654f626a656374, none, 0xf9a74d0a7b3011d3a044006094eb75cb, true, false⟩ /- PortableObject -/,
    ⟨0x08835f4f7b2811d3a044006094eb75cb, 0x506f727461626c654f626a656374436c6173734944, none, 0x0101030000000000060e2b3401040101, true, false⟩ /- PortableObjectClassID -/,
    ⟨0x6095818547b111d4a01c0004ac969f50, 0x54616767656456616c75654174747269627574654c697374, none, 0x0506080000000000060e2b3401040101, true, false⟩ /- TaggedValueAttributeList -/,
    ⟨0xc12d81acbd684fefa37f562d28e37158, 0x54616767656456616c75655f53747265616d, none, 0x0410020000000000060e2b3401040101, true, false⟩ /- TaggedValue_Stream -/]⟩ /- TaggedValue -/,
  ⟨0x45646765436f6465, 0x0d01010101010400060e2b3402060101, some 0x0d01010101010300060e2b3402060101, true, [
    ⟨0x1fb0160a690745fea997c6818820970e, 0x41764261736550657266, none, 0x0101010000000000060e2b3401040101, true, false⟩ /- AvBasePerf -/,
    ⟨0x4d783cfa35da45669a522190d5078616, 0x41764564676554797065, none, 0x0101060000000000060e2b3401040101, true, false⟩ /- AvEdgeType -/,
    ⟨0x067da182a75048ba995bb7fd88f3b838, 0x417646696c6d54797065, none, 0x0101060000000000060e2b3401040101, true, false⟩ /- AvFilmType -/]⟩ /- EdgeCode -/,
  ⟨0x5247424144657363726970746f72, 0x0d01010101012900060e2b3402060101, some 0x0d01010101012700060e2b3402060101, true, [
    ⟨0x0e0401010101010d060e2b3401010101, 0x4f6666736574546f4672616d65496e6465786573, none, 0x0101080000000000060e2b3401040101, true, false⟩ /- OffsetToFrameIndexes -/]⟩ /- RGBADescriptor -/,
  ⟨0x41766964547261636b4d616e547261636b657244617461436c617373, 0x13e0a981041211d49ff90004ac969f50, some 0x0d01010101010100060e2b3402060101, true, [
    ⟨0xe3c9057c311d41c19a7d41ae1de90150, 0x544b4d4e54726b44617461426f7858, none, 0x0502160000000000060e2b3401040101, true, false⟩ /- TKMNTrkDataBoxX -/,
    ⟨0xf15129da7d1a4f6887abc0956f125654, 0x544b4d4e54726b44617461426f7859, none, 0x0502160000000000060e2b3401040101, true, false⟩ /- TKMNTrkDataBoxY -/,
    ⟨0xc63c3449041211d49ff90004ac969f50, 0x544b4d4e54726b44617461436f6e666964656e6365, none, 0x0502160000000000060e2b3401040101, true, false⟩ /- TKMNTrkDataConfidence -/,
    ⟨0xc63c3447041211d49ff90004ac969f50, 0x544b4d4e54726b446174614461746158, none, 0x0502160000000000060e2b3401040101, true, false⟩ /- TKMNTrkDataDataX -/,
    ⟨0xc63c3448041211d49ff90004ac969f50, 0x544b4d4e54726b446174614461746159, none, 0x0502160000000000060e2b3401040101, true, false⟩ /- TKMNTrkDataDataY -/,
    ⟨0xaab41ed607cc49178119a4bfeec607a0, 0x544b4d4e54726b4461746146696c74657244617461416d74, none, 0x0301010000000000060e2b3401040101, true, false⟩ /- TKMNTrkDataFilterDataAmt -/,
    ⟨0xd1f936be6f3a4b8d8e7a855ab8a8565f, 0x544b4d4e54726b446174614a697474657252656d6f76616c456e61626c6564, none, 0x0104010000000000060e2b3401040101, true, false⟩ /- TKMNTrkDataJitterRemovalEnabled -/,
    ⟨0x875d33e9f5964daa97303128a06b9763, 0x544b4d4e54726b446174614f6666736574547261636b696e67456e61626c6564, none, 0x0104010000000000060e2b3401040101, true, false⟩ /- TKMNTrkDataOffsetTrackingEnabled -/,
    ⟨0xc63c344a041211d49ff90004ac969f50, 0x544b4d4e54726b446174614f666673657458, none, 0x0502160000000000060e2b3401040101, true, false⟩ /- TKMNTrkDataOffsetX -/,
    ⟨0xc63c344b041211d49ff90004ac969f50, 0x544b4d4e54726b446174614f666673657459, none, 0x0502160000000000060e2b3401040101, true, false⟩ /- TKMNTrkDataOffsetY -/,
    ⟨0xc63c344d041211d49ff90004ac969f50, 0x544b4d4e54726b446174615061747465726e48, none, 0x0502160000000000060e2b3401040101, true, false⟩ /- TKMNTrkDataPatternH -/,
    ⟨0xc63c344c041211d49ff90004ac969f50, 0x544b4d4e54726b446174615061747465726e57, none, 0x0502160000000000060e2b3401040101, true, false⟩ /- TKMNTrkDataPatternW -/,
    ⟨0xc63c3451041211d49ff90004ac969f50, 0x544b4d4e54726b446174615365617263684248, none, 0x0502160000000000060e2b3401040101, true, false⟩ /- TKMNTrkDataSearchBH -/,
    ⟨0xc63c344e041211d49ff90004ac969f50, 0x544b4d4e54726b446174615365617263684c57, none, 0x0502160000000000060e2b3401040101, true, false⟩ /- TKMNTrkDataSearchLW -/,
    ⟨0xc63c344f041211d49ff90004ac969f50, 0x544b4d4e54726b446174615365617263685257, none, 0x0502160000000000060e2b3401040101, true, false⟩ /- TKMNTrkDataSearchRW -/,
    ⟨0xc63c3450041211d49ff90004ac969f50, 0x544b4d4e54726b446174615365617263685448, none, 0x0502160000000000060e2b3401040101, true, false⟩ /- TKMNTrkDataSearchTH -/,
    ⟨0xc63c3452041211d49ff90004ac969f50, 0x544b4d4e54726b4461746153657474696e6773, none, 0xccaa73d1f53811d3a081006094eb75cb, false, false⟩ /- TKMNTrkDataSettings -/,
    ⟨0x75994f5fe03847699026d8082cebc6e0, 0x544b4d4e54726b44617461536d6f6f7468696e67456e61626c6564, none, 0x0104010000000000060e2b3401040101, true, false⟩ /- TKMNTrkDataSmoothingEnabled -/]⟩ /- AvidTrackManTrackerDataClass -/,
  ⟨0x4f7065726174696f6e47726f7570, 0x0d01010101010a00060e2b3402060101, some 0x0d01010101010300060e2b3402060101, true, [
    ⟨0xb045db5e87d747fbb8622a548a1cad60, 0x4f7047726f7570415658506172616d53747265616d, none, 0x0410020000000000060e2b3401040101, true, false⟩ /- OpGroupAVXParamStream -/,
    ⟨0x73fe71c515f34f0eacb8b70edfe6ca5c, 0x4f7047726f75704772617068696373506172616d53747265616d, none, 0x0410020000000000060e2b3401040101, true, false⟩ /- OpGroupGraphicsParamStream -/,
    ⟨0x7cd5da626a1c44909f6cf57204ec7dba, 0x4f7047726f75704c6566744c656e677468, none, 0x0101070000000000060e2b3401040101, true, false⟩ /- OpGroupLeftLength -/,
    ⟨0x77ad684108fc4f53bd0a2a6b0b5f94d9, 0x4f7047726f75704d6f74696f6e43746c4f66667365744d617041646a757374, none, 0x0301010000000000060e2b3401040101, true, false⟩ /- OpGroupMotionCtlOffsetMapAdjust -/,
    ⟨0x614406f1d8e7469bbd990e70a9a9cd60, 0x4f7047726f75704d6f74696f6e43746c536f75726365506172616d73, none, 0x05060a0000000000060e2b3401040101, true, false⟩ /- OpGroupMotionCtlSourceParams -/,
    ⟨0xa7da735620214f8997d2e683307c8dd7, 0x4f7047726f757052696768744c656e677468, none, 0x0101070000000000060e2b3401040101, true, false⟩ /- OpGroupRightLength -/,
    ⟨0x30a42451069e11d49ffb0004ac969f50, 0x4f70477270544b4d4e547261636b6564506172616d417279, none, 0xb56a2ec2fc3b11d39ff70004ac969f50, true, false⟩ /- OpGrpTKMNTrackedParamAry -/,
    ⟨0x30a42452069e11d49ffb0004ac969f50, 0x4f70477270544b4d4e547261636b6564506172616d5365746e67, none, 0xccaa73d1f53811d3a081006094eb75cb, true, false⟩ /- OpGrpTKMNTrackedParamSetng -/,
    ⟨0xaf91355104c311d49ff90004ac969f50, 0x4f70477270544b4d4e547261636b657244617461417279, none, 0xb56a2ec3fc3b11d39ff70004ac969f50, true, false⟩ /- OpGrpTKMNTrackerDataAry -/]⟩ /- OperationGroup -/]

/-- Part of `extClasses` (model/ext/classdefs.py, `classdefs`). -/
def extClasses2 : List CArgs := [
  ⟨0x486561646572, 0x0d01010101012f00060e2b3402060101, some 0x0d01010101010100060e2b3402060101, true, [
    ⟨0xb7d51ad5650b4d3a859699b579e177a6, 0x417564696f5261746541646a7573746d656e74466163746f72, none, 0x0101020000000000060e2b3401040101, true, false⟩ /- AudioRateAdjustmentFactor -/,
    ⟨0xabf1b7718efd48028b2f680dff611381, 0x457373656e636546696c654d6f624944, none, 0x0103020000000000060e2b3401040101, true, false⟩ /- EssenceFileMobID -/,
    ⟨0xffdd41e1ae2c49c6ae5878e041454179, 0x4d61737465724d6f624944, none, 0x0103020000000000060e2b3401040101, true, false⟩ /- MasterMobID -/,
    ⟨0xf36546b1387c4ee98c70a718467ae486, 0x50726f6a6563744564697452617465, none, 0x0301010000000000060e2b3401040101, true, false⟩ /- ProjectEditRate -/,
    ⟨0x62fc3717492d42bfa5fb7b25f61594b9, 0x50726f6a6563744e616d65, none, 0x0110020000000000060e2b3401040101, true, false⟩ /- ProjectName -/]⟩ /- Header -/,
  ⟨0x457373656e636547726f7570, 0x0d01010101010500060e2b3402060101, some 0x0d01010101010300060e2b3402060101, true, [
    ⟨0xd9c9bf24f6b811d3a083006094eb75cb, 0x457373656e636547726f757054797065, none, 0x0101070000000000060e2b3401040101, true, false⟩ /- EssenceGroupType -/]⟩ /- EssenceGroup -/,
  ⟨0x41766964204d43204d6f62205265666572656e6365, 0x6619f8e0fe7711d3a084006094eb75cb, some 0x0d01010101010100060e2b3402060101, true, [
    ⟨0x81110e9ffe7c11d3a084006094eb75cb, 0x4d6f62205265666572656e6365204d6f624944, none, 0x0103020000000000060e2b3401040101, false, false⟩ /- Mob Reference MobID -/,
    ⟨0x81110ea0fe7c11d3a084006094eb75cb, 0x4d6f62205265666572656e636520506f736974696f6e, none, 0x0101080000000000060e2b3401040101, false, false⟩ /- Mob Reference Position -/]⟩ /- Avid MC Mob Reference -/]

/-- model/ext/classdefs.py, `classdefs` -/
def extClasses : List CArgs := extClasses0 ++ extClasses1 ++ extClasses2

/-- model/classdefs.py, `aliases` -/
def baseAliases : List (Name × Name) := [
  (0x436c617373446566, 0x436c617373446566696e6974696f6e) /- ClassDef: ClassDefinition -/,
  (0x436f646563446566, 0x436f646563446566696e6974696f6e) /- CodecDef: CodecDefinition -/,
  (0x44617461446566, 0x44617461446566696e6974696f6e) /- DataDef: DataDefinition -/,
  (0x4465664f626a656374, 0x446566696e6974696f6e4f626a656374) /- DefObject: DefinitionObject -/,
  (0x45646765636f6465, 0x45646765436f6465) /- Edgecode: EdgeCode -/,
  (0x4f7065726174696f6e446566, 0x4f7065726174696f6e446566696e6974696f6e) /- OperationDef: OperationDefinition -/,
  (0x4f626a656374, 0x496e7465726368616e67654f626a656374) /- Object: InterchangeObject -/,
  (0x506172616d65746572446566, 0x506172616d65746572446566696e6974696f6e) /- ParameterDef: ParameterDefinition -/,
  (0x496e746572706f6c6174696f6e446566, 0x496e746572706f6c6174696f6e446566696e6974696f6e) /- InterpolationDef: InterpolationDefinition -/,
  (0x50726f7065727479446566, 0x50726f7065727479446566696e6974696f6e) /- PropertyDef: PropertyDefinition -/,
  (0x54797065446566, 0x54797065446566696e6974696f6e) /- TypeDef: TypeDefinition -/,
  (0x54797065446566436861726163746572, 0x54797065446566696e6974696f6e436861726163746572) /- TypeDefCharacter: TypeDefinitionCharacter -/,
  (0x54797065446566456e756d, 0x54797065446566696e6974696f6e456e756d65726174696f6e) /- TypeDefEnum: TypeDefinitionEnumeration -/,
  (0x54797065446566457874456e756d, 0x54797065446566696e6974696f6e457874656e6469626c65456e756d65726174696f6e) /- TypeDefExtEnum: TypeDefinitionExtendibleEnumeration -/,
  (0x5479706544656646697865644172726179, 0x54797065446566696e6974696f6e46697865644172726179) /- TypeDefFixedArray: TypeDefinitionFixedArray -/,
  (0x54797065446566496e74, 0x54797065446566696e6974696f6e496e7465676572) /- TypeDefInt: TypeDefinitionInteger -/,
  (0x547970654465665265636f7264, 0x54797065446566696e6974696f6e5265636f7264) /- TypeDefRecord: TypeDefinitionRecord -/,
  (0x5479706544656652656e616d65, 0x54797065446566696e6974696f6e52656e616d65) /- TypeDefRename: TypeDefinitionRename -/,
  (0x54797065446566536574, 0x54797065446566696e6974696f6e536574) /- TypeDefSet: TypeDefinitionSet -/,
  (0x5479706544656653747265616d, 0x54797065446566696e6974696f6e53747265616d) /- TypeDefStream: TypeDefinitionStream -/,
  (0x54797065446566537472696e67, 0x54797065446566696e6974696f6e537472696e67) /- TypeDefString: TypeDefinitionString -/,
  (0x54797065446566496e646972656374, 0x54797065446566696e6974696f6e496e646972656374) /- TypeDefIndirect: TypeDefinitionIndirect -/,
  (0x547970654465664f7061717565, 0x54797065446566696e6974696f6e4f7061717565) /- TypeDefOpaque: TypeDefinitionOpaque -/,
  (0x547970654465665374726f6e674f626a526566, 0x54797065446566696e6974696f6e5374726f6e674f626a6563745265666572656e6365) /- TypeDefStrongObjRef: TypeDefinitionStrongObjectReference -/,
  (0x547970654465665661726961626c654172726179, 0x54797065446566696e6974696f6e5661726961626c654172726179) /- TypeDefVariableArray: TypeDefinitionVariableArray -/,
  (0x547970654465665765616b4f626a526566, 0x54797065446566696e6974696f6e5765616b4f626a6563745265666572656e6365) /- TypeDefWeakObjRef: TypeDefinitionWeakObjectReference -/,
  (0x436f6e7461696e6572446566, 0x436f6e7461696e6572446566696e6974696f6e) /- ContainerDef: ContainerDefinition -/,
  (0x506c7567696e446566, 0x506c7567696e446566696e6974696f6e) /- PluginDef: PluginDefinition -/,
  (0x4176696454797065446566696e6974696f6e47656e65726963436861726163746572, 0x54797065446566696e6974696f6e47656e65726963436861726163746572) /- AvidTypeDefinitionGenericCharacter: TypeDefinitionGenericCharacter -/,
  (0x54616767656456616c7565446566, 0x54616767656456616c7565446566696e6974696f6e) /- TaggedValueDef: TaggedValueDefinition -/,
  (0x5479706544656647656e65726963436861726163746572, 0x54797065446566696e6974696f6e47656e65726963436861726163746572) /- TypeDefGenericCharacter: TypeDefinitionGenericCharacter -/]

/-- model/ext/classdefs.py, `aliases` -/
def extAliases : List (Name × Name) := [
  (0x417669645f4d435f4d6f625f5265666572656e6365, 0x41766964204d43204d6f62205265666572656e6365) /- Avid_MC_Mob_Reference: Avid MC Mob Reference -/]

/-- The library. (Made of `rootClasses` metadict.py:302-307.) -/
def library : Library where
  root := 0x526f6f74
  rootAuid := 0xb3b398a51c9011d48053080036210804
  classes := rootClasses ++ baseClasses
  aliases := baseAliases
  ext := extClasses
  extAliases := Verif.Meta.extAliases

end Verif.Meta
