import Verif.Basic.Arith
import Verif.Basic.Arr
import Verif.Basic.DType
import Verif.Basic.Dict
import Verif.Basic.Dual
import Verif.Basic.Err
import Verif.Basic.Flush
import Verif.Basic.PyTree
import Verif.Basic.Round
import Verif.Basic.Special
import Verif.Basic.Tensor
import Verif.Basic.WhileLoop
import Verif.Conformance.Applied1
import Verif.Conformance.Applied2
import Verif.Conformance.Builder
import Verif.Conformance.Common
import Verif.Conformance.Controller
import Verif.Conformance.Editor
import Verif.Conformance.Layers
import Verif.Conformance.Utilities
import Verif.Conformance.Viewer
import Verif.Lemmas.Agree
import Verif.Lemmas.Arr
import Verif.Lemmas.Binary
import Verif.Lemmas.Broadcast
import Verif.Lemmas.Builder
import Verif.Lemmas.Controller
import Verif.Lemmas.Dict
import Verif.Lemmas.Editor
import Verif.Lemmas.Entry
import Verif.Lemmas.Exact
import Verif.Lemmas.Families
import Verif.Lemmas.Flatten
import Verif.Lemmas.Flush
import Verif.Lemmas.Fused
import Verif.Lemmas.FusedEntry
import Verif.Lemmas.Graves
import Verif.Lemmas.Heap
import Verif.Lemmas.HeapKeys
import Verif.Lemmas.HeapOwn
import Verif.Lemmas.HeapShare
import Verif.Lemmas.HeapSim
import Verif.Lemmas.HeapValue
import Verif.Lemmas.HeapView
import Verif.Lemmas.History
import Verif.Lemmas.Iterate
import Verif.Lemmas.Layers
import Verif.Lemmas.LoopTangent
import Verif.Lemmas.Mapping
import Verif.Lemmas.Nearest
import Verif.Lemmas.Overflow
import Verif.Lemmas.Ponder
import Verif.Lemmas.PyTree
import Verif.Lemmas.Res
import Verif.Lemmas.Reset
import Verif.Lemmas.Restrict
import Verif.Lemmas.Round
import Verif.Lemmas.Rounded
import Verif.Lemmas.Rounds
import Verif.Lemmas.Sig
import Verif.Lemmas.Slice
import Verif.Lemmas.Sorted
import Verif.Lemmas.Spread
import Verif.Lemmas.Structure
import Verif.Lemmas.Tensor
import Verif.Lemmas.Traced
import Verif.Lemmas.TwoAriths
import Verif.Lemmas.Types
import Verif.Lemmas.Utils
import Verif.Lemmas.Viewer
import Verif.Model.Builder
import Verif.Model.Carry
import Verif.Model.Checkify
import Verif.Model.Controller
import Verif.Model.Editor
import Verif.Model.Flatten
import Verif.Model.Fused
import Verif.Model.Heap
import Verif.Model.Immutable
import Verif.Model.Layers
import Verif.Model.State
import Verif.Model.StaticData
import Verif.Model.Text
import Verif.Model.Utils
import Verif.Model.Viewer
import Verif.Props.C01
import Verif.Props.C02
import Verif.Props.C03
import Verif.Props.C04
import Verif.Props.C05
import Verif.Props.C06
import Verif.Props.C07
import Verif.Props.C08
import Verif.Props.C09
import Verif.Props.C10
import Verif.Props.C100
import Verif.Props.C101
import Verif.Props.C102
import Verif.Props.C103
import Verif.Props.C104
import Verif.Props.C105
import Verif.Props.C106
import Verif.Props.C107
import Verif.Props.C108
import Verif.Props.C109
import Verif.Props.C11
import Verif.Props.C110
import Verif.Props.C111
import Verif.Props.C112
import Verif.Props.C113
import Verif.Props.C114
import Verif.Props.C115
import Verif.Props.C116
import Verif.Props.C117
import Verif.Props.C118
import Verif.Props.C119
import Verif.Props.C12
import Verif.Props.C120
import Verif.Props.C121
import Verif.Props.C122
import Verif.Props.C123
import Verif.Props.C124
import Verif.Props.C125
import Verif.Props.C126
import Verif.Props.C13
import Verif.Props.C14
import Verif.Props.C15
import Verif.Props.C16
import Verif.Props.C17
import Verif.Props.C18
import Verif.Props.C19
import Verif.Props.C20
import Verif.Props.C20Demo
import Verif.Props.C21
import Verif.Props.C22
import Verif.Props.C23
import Verif.Props.C24
import Verif.Props.C25
import Verif.Props.C26
import Verif.Props.C27
import Verif.Props.C28
import Verif.Props.C29
import Verif.Props.C30
import Verif.Props.C31
import Verif.Props.C32
import Verif.Props.C33
import Verif.Props.C34
import Verif.Props.C35
import Verif.Props.C36
import Verif.Props.C37
import Verif.Props.C38
import Verif.Props.C39
import Verif.Props.C40
import Verif.Props.C41
import Verif.Props.C42
import Verif.Props.C43
import Verif.Props.C44
import Verif.Props.C45
import Verif.Props.C46
import Verif.Props.C47
import Verif.Props.C48
import Verif.Props.C49
import Verif.Props.C50
import Verif.Props.C51
import Verif.Props.C52
import Verif.Props.C53
import Verif.Props.C54
import Verif.Props.C55
import Verif.Props.C56
import Verif.Props.C57
import Verif.Props.C58
import Verif.Props.C59
import Verif.Props.C60
import Verif.Props.C61
import Verif.Props.C62
import Verif.Props.C63
import Verif.Props.C64
import Verif.Props.C65
import Verif.Props.C66
import Verif.Props.C67
import Verif.Props.C68
import Verif.Props.C69
import Verif.Props.C70
import Verif.Props.C71
import Verif.Props.C72
import Verif.Props.C73
import Verif.Props.C74
import Verif.Props.C75
import Verif.Props.C76
import Verif.Props.C77
import Verif.Props.C78
import Verif.Props.C79
import Verif.Props.C80
import Verif.Props.C81
import Verif.Props.C82
import Verif.Props.C83
import Verif.Props.C84
import Verif.Props.C85
import Verif.Props.C86
import Verif.Props.C87
import Verif.Props.C88
import Verif.Props.C89
import Verif.Props.C90
import Verif.Props.C91
import Verif.Props.C92
import Verif.Props.C93
import Verif.Props.C94
import Verif.Props.C95
import Verif.Props.C96
import Verif.Props.C97
import Verif.Props.C98
import Verif.Props.C99
import Verif.Props.Fixtures
import Verif.Spec.Continue
import Verif.Spec.Edit
import Verif.Spec.Editable
import Verif.Spec.Families
import Verif.Spec.Gradient
import Verif.Spec.Graves
import Verif.Spec.Heap
import Verif.Spec.HeapValue
import Verif.Spec.History
import Verif.Spec.Loop
import Verif.Spec.LoopTangent
import Verif.Spec.Mapping
import Verif.Spec.Mirror
import Verif.Spec.Overflow
import Verif.Spec.Ownership
import Verif.Spec.Pace
import Verif.Spec.Paths
import Verif.Spec.Pause
import Verif.Spec.Ponder
import Verif.Spec.Readout
import Verif.Spec.Regroup
import Verif.Spec.Reset
import Verif.Spec.Restrict
import Verif.Spec.Rounded
import Verif.Spec.Session
import Verif.Spec.SessionSame
import Verif.Spec.Slice
import Verif.Spec.Step
import Verif.Spec.Stream
import Verif.Spec.Superposition
import Verif.Spec.Tangent
import Verif.Spec.Traced
import Verif.Spec.TrainingSignal
import Verif.Spec.Types
import Verif.Spec.WellFormed
