import Verif.Lemmas.Affine
import Verif.Lemmas.Balanced
import Verif.Lemmas.Basic
import Verif.Lemmas.BellmanFord
import Verif.Lemmas.BinaryRounding
import Verif.Lemmas.Choice
import Verif.Lemmas.ClassRows
import Verif.Lemmas.ClusterTasks
import Verif.Lemmas.Clusters
import Verif.Lemmas.Comb
import Verif.Lemmas.Dict
import Verif.Lemmas.Distances
import Verif.Lemmas.Drawn
import Verif.Lemmas.Evaluation
import Verif.Lemmas.EvaluationExample
import Verif.Lemmas.EvaluationInv
import Verif.Lemmas.EvaluationRun
import Verif.Lemmas.ExtendsAll
import Verif.Lemmas.Files
import Verif.Lemmas.FilesExample
import Verif.Lemmas.Folding
import Verif.Lemmas.Geometry
import Verif.Lemmas.Hull
import Verif.Lemmas.Interp
import Verif.Lemmas.Jobs
import Verif.Lemmas.JobsExample
import Verif.Lemmas.Json
import Verif.Lemmas.JsonNul
import Verif.Lemmas.JsonParse
import Verif.Lemmas.JsonPrefix
import Verif.Lemmas.Majority
import Verif.Lemmas.Merge
import Verif.Lemmas.Noise
import Verif.Lemmas.Perm
import Verif.Lemmas.Pool
import Verif.Lemmas.Reach
import Verif.Lemmas.Registry
import Verif.Lemmas.Relations
import Verif.Lemmas.Rename
import Verif.Lemmas.RenameHelpers
import Verif.Lemmas.Reorder
import Verif.Lemmas.ReorderSimplex
import Verif.Lemmas.Rng
import Verif.Lemmas.RoundedSmote
import Verif.Lemmas.Rounding
import Verif.Lemmas.Sampler
import Verif.Lemmas.SamplerLength
import Verif.Lemmas.SamplerTotal
import Verif.Lemmas.SelTotal
import Verif.Lemmas.SelWeights
import Verif.Lemmas.Selection
import Verif.Lemmas.SimplexAlg
import Verif.Lemmas.Smote
import Verif.Lemmas.SmoteExample
import Verif.Lemmas.Stats
import Verif.Lemmas.Tensor
import Verif.Lemmas.Under
import Verif.Lemmas.Unique
import Verif.Model.Adg
import Verif.Model.Adoms
import Verif.Model.Ahc
import Verif.Model.Amsco
import Verif.Model.Amsr
import Verif.Model.Arrays
import Verif.Model.Asmobd
import Verif.Model.Base
import Verif.Model.Borderline
import Verif.Model.Ccr
import Verif.Model.CeNras
import Verif.Model.Checks
import Verif.Model.Cleaning
import Verif.Model.Clusters
import Verif.Model.Concurrent
import Verif.Model.Config
import Verif.Model.Cure
import Verif.Model.Dbsmote
import Verif.Model.DeOver
import Verif.Model.Deago
import Verif.Model.Dict
import Verif.Model.Distances
import Verif.Model.Dsmote
import Verif.Model.Dsrbf
import Verif.Model.Esmote
import Verif.Model.Evaluation
import Verif.Model.Files
import Verif.Model.Folding
import Verif.Model.Frst
import Verif.Model.GSmote
import Verif.Model.GSmoteNl
import Verif.Model.Gasmote
import Verif.Model.Heap
import Verif.Model.Interp
import Verif.Model.Ipade
import Verif.Model.Ipf
import Verif.Model.Isomap
import Verif.Model.Jobs
import Verif.Model.Json
import Verif.Model.Kernel
import Verif.Model.Labeling
import Verif.Model.Lee
import Verif.Model.Lle
import Verif.Model.LnSmote
import Verif.Model.Lvq
import Verif.Model.Mdo
import Verif.Model.Merge
import Verif.Model.MergeAlgs
import Verif.Model.Metrics
import Verif.Model.Mot2ld
import Verif.Model.Msyn
import Verif.Model.Multiclass
import Verif.Model.Mwmote
import Verif.Model.Ndo
import Verif.Model.Neater
import Verif.Model.Noise
import Verif.Model.Oups
import Verif.Model.Params
import Verif.Model.Pdfos
import Verif.Model.PdfosCriterion
import Verif.Model.Plots
import Verif.Model.Polynom
import Verif.Model.Pool
import Verif.Model.ProWSyn
import Verif.Model.Processing
import Verif.Model.Pso
import Verif.Model.PsoBat
import Verif.Model.PsoBatEval
import Verif.Model.Queries
import Verif.Model.RbfNeuron
import Verif.Model.Regions
import Verif.Model.Registry
import Verif.Model.RegistryTypes
import Verif.Model.Rejection
import Verif.Model.Reuse
import Verif.Model.Rng
import Verif.Model.Rounded
import Verif.Model.RoundedChoice
import Verif.Model.RoundedPolynom
import Verif.Model.RoundedSafe
import Verif.Model.RoundedScale
import Verif.Model.RoundedSmoteD
import Verif.Model.Rsb
import Verif.Model.Selected
import Verif.Model.Selection
import Verif.Model.Simplex
import Verif.Model.SlGraph
import Verif.Model.Smobd
import Verif.Model.Smote
import Verif.Model.SmoteD
import Verif.Model.SmoteOut
import Verif.Model.Smotewb
import Verif.Model.SnSmmo
import Verif.Model.SoiCj
import Verif.Model.Somo
import Verif.Model.Sso
import Verif.Model.SsoNet
import Verif.Model.Sundo
import Verif.Model.Symprod
import Verif.Model.Tensor
import Verif.Model.Trim
import Verif.Model.Under
import Verif.Model.VisRst
import Verif.Model.Volume
import Verif.Model.Vsynth
import Verif.Model.Weighted
import Verif.Model.Xmeans
import Verif.Props.C01
import Verif.Props.C02
import Verif.Props.C03
import Verif.Props.C04
import Verif.Props.C05
import Verif.Props.C06
import Verif.Props.C07
import Verif.Props.C08
import Verif.Props.C09
import Verif.Props.C10
import Verif.Props.C100
import Verif.Props.C101
import Verif.Props.C102
import Verif.Props.C102b
import Verif.Props.C103
import Verif.Props.C104
import Verif.Props.C105
import Verif.Props.C106
import Verif.Props.C107
import Verif.Props.C108
import Verif.Props.C109
import Verif.Props.C11
import Verif.Props.C110
import Verif.Props.C111
import Verif.Props.C112
import Verif.Props.C113
import Verif.Props.C114
import Verif.Props.C115
import Verif.Props.C115b
import Verif.Props.C116
import Verif.Props.C117
import Verif.Props.C118
import Verif.Props.C118b
import Verif.Props.C119
import Verif.Props.C12
import Verif.Props.C120
import Verif.Props.C121
import Verif.Props.C122
import Verif.Props.C123
import Verif.Props.C123b
import Verif.Props.C124
import Verif.Props.C125
import Verif.Props.C126
import Verif.Props.C127
import Verif.Props.C128
import Verif.Props.C129
import Verif.Props.C129b
import Verif.Props.C13
import Verif.Props.C130
import Verif.Props.C131
import Verif.Props.C132
import Verif.Props.C132b
import Verif.Props.C132c
import Verif.Props.C133
import Verif.Props.C134
import Verif.Props.C135
import Verif.Props.C136
import Verif.Props.C137
import Verif.Props.C138
import Verif.Props.C139
import Verif.Props.C14
import Verif.Props.C140
import Verif.Props.C141
import Verif.Props.C142
import Verif.Props.C143
import Verif.Props.C144
import Verif.Props.C145
import Verif.Props.C145b
import Verif.Props.C146
import Verif.Props.C15
import Verif.Props.C16
import Verif.Props.C17
import Verif.Props.C18
import Verif.Props.C19
import Verif.Props.C20
import Verif.Props.C21
import Verif.Props.C22
import Verif.Props.C23
import Verif.Props.C24
import Verif.Props.C25
import Verif.Props.C26
import Verif.Props.C27
import Verif.Props.C28
import Verif.Props.C29
import Verif.Props.C30
import Verif.Props.C30b
import Verif.Props.C31
import Verif.Props.C32
import Verif.Props.C33
import Verif.Props.C34
import Verif.Props.C35
import Verif.Props.C36
import Verif.Props.C37
import Verif.Props.C38
import Verif.Props.C39
import Verif.Props.C40
import Verif.Props.C41
import Verif.Props.C42
import Verif.Props.C43
import Verif.Props.C44
import Verif.Props.C45
import Verif.Props.C46
import Verif.Props.C47
import Verif.Props.C48
import Verif.Props.C49
import Verif.Props.C50
import Verif.Props.C51
import Verif.Props.C52
import Verif.Props.C53
import Verif.Props.C54
import Verif.Props.C55
import Verif.Props.C56
import Verif.Props.C57
import Verif.Props.C58
import Verif.Props.C59
import Verif.Props.C60
import Verif.Props.C61
import Verif.Props.C62
import Verif.Props.C63
import Verif.Props.C64
import Verif.Props.C65
import Verif.Props.C66
import Verif.Props.C67
import Verif.Props.C68
import Verif.Props.C69
import Verif.Props.C70
import Verif.Props.C71
import Verif.Props.C72
import Verif.Props.C73
import Verif.Props.C74
import Verif.Props.C75
import Verif.Props.C76
import Verif.Props.C77
import Verif.Props.C78
import Verif.Props.C79
import Verif.Props.C80
import Verif.Props.C81
import Verif.Props.C82
import Verif.Props.C83
import Verif.Props.C84
import Verif.Props.C85
import Verif.Props.C86
import Verif.Props.C87
import Verif.Props.C88
import Verif.Props.C89
import Verif.Props.C90
import Verif.Props.C91
import Verif.Props.C92
import Verif.Props.C93
import Verif.Props.C94
import Verif.Props.C95
import Verif.Props.C96
import Verif.Props.C97
import Verif.Props.C98
import Verif.Props.C99
import Verif.Py
import Verif.Spec.Affine
import Verif.Spec.Again
import Verif.Spec.Arrays
import Verif.Spec.Balanced
import Verif.Spec.Clusters
import Verif.Spec.Concurrent
import Verif.Spec.Distances
import Verif.Spec.Evaluation
import Verif.Spec.Files
import Verif.Spec.Geometry
import Verif.Spec.Graphs
import Verif.Spec.Interp
import Verif.Spec.Json
import Verif.Spec.Leak
import Verif.Spec.Majority
import Verif.Spec.Memory
import Verif.Spec.Neighbors
import Verif.Spec.Relations
import Verif.Spec.Rename
import Verif.Spec.Reorder
import Verif.Spec.Reuse
import Verif.Spec.RoundedSafe
import Verif.Spec.RoundedScale
import Verif.Spec.Rounding
import Verif.Spec.Sampling
import Verif.Spec.Search
import Verif.Spec.Selection
import Verif.Spec.Tensor
import Verif.Spec.Volume
import Verif.Spec.Xmeans
