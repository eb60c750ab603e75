import Verif.Props.C01_Auid
import Verif.Props.C02_Order
import Verif.Props.C03_MobID
import Verif.Props.C04_Urn
import Verif.Props.C05_Utf16
import Verif.Props.C06_Int
import Verif.Props.C07_Enum
import Verif.Props.C09_Values
import Verif.Props.C08_Arrays
import Verif.Props.C12_PropStream
import Verif.Props.C15_Names
import Verif.Props.C16_Lru
import Verif.Props.C17_Chain
import Verif.Props.C18_Alloc
import Verif.Props.C21_Stream
import Verif.Props.C25_Dir
import Verif.Props.C37_Slots
import Verif.Props.C38_Sequence
import Verif.Props.C39_Keyframes
import Verif.Props.C40_Deps
import Verif.Props.C41_Dnx
import Verif.Props.C35_Pids
import Verif.Props.C36_Classes
import Verif.Props.C42_Klv
import Verif.Props.C43_Wave
import Verif.Props.C44_Tagged
import Verif.Props.C29_Header
import Verif.Model.Session
import Verif.Model.DirEntry
import Verif.Spec.DirRecord
import Verif.Props.C24_DirEntry
import Verif.Props.C28_Sessions
import Verif.Props.C27_Tree
import Verif.Model.Graph
import Verif.Spec.ObjectGraph
import Verif.Lemmas.GraphInv
import Verif.Lemmas.GraphLoad
import Verif.Lemmas.GraphDetach
import Verif.Lemmas.GraphAttach
import Verif.Lemmas.GraphWire
import Verif.Lemmas.GraphVec
import Verif.Lemmas.GraphVecOps
import Verif.Lemmas.GraphSetOps
import Verif.Lemmas.GraphSetOps2
import Verif.Lemmas.GraphFile
import Verif.Lemmas.GraphCalls
import Verif.Lemmas.GraphCalls2
import Verif.Lemmas.GraphAbs
import Verif.Lemmas.GraphRefine
import Verif.Lemmas.GraphFrame
import Verif.Lemmas.GraphTree
import Verif.Model.Modes
import Verif.Props.C31_ReadOnly
import Verif.Props.C32_Vector
import Verif.Props.C33_Set
import Verif.Props.C34_Owner
import Verif.Props.C45_Abort
import Verif.Model.GraphCopy
import Verif.Spec.ObjectLook
import Verif.Lemmas.GraphCopy
import Verif.Lemmas.GraphFull
import Verif.Props.C47_Copy
import Verif.Model.GraphCopyTo
import Verif.Lemmas.GraphCopyTo
import Verif.Props.C47_CopyTo
import Verif.Model.IndexName
import Verif.Props.C47_Index
import Verif.Model.Volume
import Verif.Spec.Volume
import Verif.Lemmas.VolTree
import Verif.Lemmas.VolRec
import Verif.Lemmas.VolFile
import Verif.Lemmas.VolRel
import Verif.Lemmas.VolPath
import Verif.Lemmas.VolStep
import Verif.Props.C48_Volume
import Verif.Lemmas.VolSolid
import Verif.Model.ObjectStore
import Verif.Spec.ObjectStore
import Verif.Lemmas.StoreView
import Verif.Lemmas.StoreRel
import Verif.Lemmas.StoreBody
import Verif.Lemmas.StoreStep
import Verif.Props.C49_Store
import Verif.Spec.Shelf
import Verif.Lemmas.GraphLog
import Verif.Model.ObjectReader
import Verif.Spec.ObjectFile
import Verif.Lemmas.StoreLog
import Verif.Lemmas.StoreWalk
import Verif.Props.C50_File
import Verif.Spec.CompoundFile
import Verif.Model.OpenVol
import Verif.Lemmas.OpenImg
import Verif.Lemmas.Foreign
import Verif.Lemmas.ForeignData
import Verif.Lemmas.ForeignTree
import Verif.Model.Reader
import Verif.Lemmas.Near
import Verif.Lemmas.ForeignLook
import Verif.Lemmas.Remark
import Verif.Lemmas.ConformTables
import Verif.Lemmas.Conform
import Verif.Lemmas.VolGrow
import Verif.Props.C48_Growing
import Verif.Props.C51_Foreign
import Verif.Props.C51_ReadOnly
import Verif.Props.C52_Conform
import Verif.Model.WeakRef
import Verif.Spec.WeakRef
import Verif.Lemmas.WeakWalk
import Verif.Lemmas.WeakStep
import Verif.Lemmas.WeakCalls
import Verif.Lemmas.WeakRuns
import Verif.Props.C53_Weak
import Verif.Model.MetaDict
import Verif.Model.Builtin
import Verif.Spec.MetaDict
import Verif.Lemmas.MetaBase
import Verif.Lemmas.MetaInv
import Verif.Lemmas.MetaReg
import Verif.Lemmas.MetaClass
import Verif.Lemmas.MetaExt
import Verif.Lemmas.MetaRead
import Verif.Lemmas.MetaComplete
import Verif.Lemmas.MetaObj
import Verif.Lemmas.MetaRel
import Verif.Lemmas.MetaStep
import Verif.Lemmas.MetaCheck
import Verif.Lemmas.MetaRoom
import Verif.Lemmas.MetaLibrary
import Verif.Lemmas.MetaForeign
import Verif.Props.C54_Names
import Verif.Props.C54_Foreign
import Verif.Props.C54_Cases
import Verif.Model.MetaCopy
import Verif.Spec.MetaCopy
import Verif.Lemmas.MetaLow
import Verif.Lemmas.MetaCopy
import Verif.Lemmas.MetaCopyObj
import Verif.Props.C55_Copy
import Verif.Model.TypeDict
import Verif.Spec.TypeDict
import Verif.Lemmas.TypeSub
import Verif.Lemmas.TypeGrow
import Verif.Lemmas.TypeBring
import Verif.Lemmas.TypeArrive
import Verif.Model.TypeLibrary
import Verif.Props.C56_Types
import Verif.Model.Walk
import Verif.Spec.Source
import Verif.Props.C57_Walk
import Verif.Model.Defs
import Verif.Props.C58_Definitions
import Verif.Model.Import
import Verif.Props.C59_Import
import Verif.Spec.Mxf
import Verif.Model.Mxf
import Verif.Lemmas.MxfRead
import Verif.Lemmas.MxfFile
import Verif.Lemmas.MxfLink
import Verif.Props.C60_Mxf
import Verif.Spec.WeakCopy
import Verif.Model.WeakCopy
import Verif.Lemmas.WeakCopy
import Verif.Props.C61_WeakCopy
import Verif.Spec.MediaLink
import Verif.Model.MediaLink
import Verif.Props.C62_MediaLink
import Verif.Spec.Interpolation
import Verif.Spec.OffsetMap
import Verif.Model.Interpolation
import Verif.Model.OffsetMap
import Verif.Lemmas.Roots
import Verif.Lemmas.Interpolation
import Verif.Props.C63_Interpolation
import Verif.Props.C64_OffsetMap
import Verif.Spec.StreamProp
import Verif.Model.StreamProp
import Verif.Lemmas.StreamProp
import Verif.Lemmas.StreamPropStep
import Verif.Lemmas.StreamPropMove
import Verif.Lemmas.StreamPropFile
import Verif.Props.C65_StreamProp
import Verif.Spec.RationalText
import Verif.Model.RationalText
import Verif.Lemmas.RationalText
import Verif.Lemmas.RationalFloat
import Verif.Props.C66_RationalText
import Verif.Spec.MasterImport
import Verif.Model.MasterImport
import Verif.Props.C67_MasterImport
import Verif.Model.Saving
import Verif.Spec.Saving
import Verif.Props.C68_Saving
import Verif.Model.Handles
import Verif.Spec.Handles
import Verif.Props.C69_Handles
import Verif.Model.Content
import Verif.Spec.Content
import Verif.Props.C70_Content
import Verif.Model.MxfValues
import Verif.Spec.MxfValues
import Verif.Props.C71_MxfValues
import Verif.Model.PropDef
import Verif.Spec.PropDef
import Verif.Props.C72_PropDef
import Verif.Spec.StreamLayout
import Verif.Props.C73_StreamLayout
