import Verif.Py
import Verif.Props.Pkg
import Verif.Props.Enums
import Verif.Props.Ref
import Verif.Props.Names
import Verif.Props.Num
import Verif.Props.Value
import Verif.Props.Xml
import Verif.Props.Impl
import Verif.Props.WorkPath
import Verif.Props.WorkTemplate
import Verif.Props.WorkDocs
import Verif.Props.SwcConnect
import Verif.Props.SwcComSpec
import Verif.Props.SwcAccess
import Verif.Props.SwcBehavior
import Verif.Props.CodecValue
import Verif.Codec.Samples
import Verif.Props.CodecTypes
import Verif.Props.CodecCompu
import Verif.Props.CodecInterface
import Verif.Props.CodecPort
import Verif.Props.CodecSwc
import Verif.Props.CodecBehavior
import Verif.Props.CodecImpl
import Verif.Props.CodecDoc
import Verif.Props.CodecPackage
import Verif.Props.CodecOrder
import Verif.Props.CodecReject
import Verif.Props.CodecTidy
import Verif.Props.CodecLoad
import Verif.Props.CodecMap
import Verif.Props.CodecNum
import Verif.Props.SwcEvent
import Verif.Props.ImplHeader
import Verif.Props.CodecOwner
import Verif.Props.WorkMap
import Verif.Props.WorkConfig
import Verif.Props.CodecRename
import Verif.Props.CodecAppend
import Verif.Props.CodecFind
import Verif.Props.CodecCreate
import Verif.Props.CodecOlder
import Verif.Props.CodecConstant
import Verif.Props.CodecScaling
import Verif.Props.CodecTypeHeader
import Verif.Props.CodecConnect
import Verif.Props.CodecEvent
import Verif.Props.CodecHistory
import Verif.Props.CodecSelect
import Verif.Props.CodecMake
import Verif.Props.CodecPortSpec
import Verif.Props.CodecAccess
import Verif.Props.RefEnum
import Verif.Axioms
