import Verif.Model.Avx2
import Verif.Model.AvxFlat
import Verif.Model.Backend
import Verif.Model.Basic
import Verif.Model.CText
import Verif.Model.Config
import Verif.Model.Conv
import Verif.Model.ConvExec
import Verif.Model.ConvFlat
import Verif.Model.ConvScalarFlat
import Verif.Model.Crash
import Verif.Model.Data
import Verif.Model.Dataset
import Verif.Model.Dense
import Verif.Model.Double
import Verif.Model.Executor
import Verif.Model.Feedback
import Verif.Model.Files
import Verif.Model.Flat
import Verif.Model.HpSearch
import Verif.Model.InferFlat
import Verif.Model.Inference
import Verif.Model.Input
import Verif.Model.Interrupt
import Verif.Model.Layout
import Verif.Model.Memory
import Verif.Model.Moved
import Verif.Model.Multi
import Verif.Model.Neon
import Verif.Model.NeonFlat
import Verif.Model.NeonTrainer
import Verif.Model.Pool
import Verif.Model.PoolExec
import Verif.Model.PredictArray
import Verif.Model.PredictNd
import Verif.Model.PyGtc
import Verif.Model.PySession
import Verif.Model.PySparse
import Verif.Model.Random
import Verif.Model.Ruleset
import Verif.Model.Session
import Verif.Model.Setup
import Verif.Model.Sharing
import Verif.Model.Simd
import Verif.Model.Sparse
import Verif.Model.SparseExec
import Verif.Model.SparseFlat
import Verif.Model.SparseParams
import Verif.Model.SparseState
import Verif.Model.SparseTrainer
import Verif.Model.StateArrays
import Verif.Model.Study
import Verif.Model.Threads
import Verif.Model.Trainable
import Verif.Model.Trainer
import Verif.Model.Writers
import Verif.Spec.Avx2
import Verif.Spec.AvxFlat
import Verif.Spec.Backend
import Verif.Spec.CLang
import Verif.Spec.ClauseOrder
import Verif.Spec.Config
import Verif.Spec.Conv
import Verif.Spec.ConvExec
import Verif.Spec.ConvFlat
import Verif.Spec.ConvScalarFlat
import Verif.Spec.Data
import Verif.Spec.Dataset
import Verif.Spec.Dense
import Verif.Spec.Double
import Verif.Spec.EndToEnd
import Verif.Spec.Executor
import Verif.Spec.Feedback
import Verif.Spec.Files
import Verif.Spec.Flat
import Verif.Spec.Fresh
import Verif.Spec.HpSearch
import Verif.Spec.InferFlat
import Verif.Spec.Input
import Verif.Spec.Interrupt
import Verif.Spec.Layout
import Verif.Spec.Matching
import Verif.Spec.Memory
import Verif.Spec.Moved
import Verif.Spec.Multi
import Verif.Spec.Neon
import Verif.Spec.NeonFlat
import Verif.Spec.OnePatch
import Verif.Spec.Pace
import Verif.Spec.PaceVotes
import Verif.Spec.Pool
import Verif.Spec.PoolExec
import Verif.Spec.PredictArray
import Verif.Spec.PredictNd
import Verif.Spec.Predictor
import Verif.Spec.PySession
import Verif.Spec.PySparse
import Verif.Spec.Random
import Verif.Spec.Recode
import Verif.Spec.RecodeAvx
import Verif.Spec.RecodeNeon
import Verif.Spec.Renumber
import Verif.Spec.Resume
import Verif.Spec.RowOrder
import Verif.Spec.Ruleset
import Verif.Spec.Session
import Verif.Spec.Settled
import Verif.Spec.Setup
import Verif.Spec.Sharing
import Verif.Spec.Sparse
import Verif.Spec.SparseExec
import Verif.Spec.SparseFlat
import Verif.Spec.SparseParams
import Verif.Spec.SparseState
import Verif.Spec.SparseTrainer
import Verif.Spec.Start
import Verif.Spec.StateArrays
import Verif.Spec.Study
import Verif.Spec.Trainable
import Verif.Spec.Trainer
import Verif.Spec.WhatIf
import Verif.Spec.Writers
import Verif.Lemmas.Avx2
import Verif.Lemmas.AvxFlat
import Verif.Lemmas.Backend
import Verif.Lemmas.CExec
import Verif.Lemmas.CPrefix
import Verif.Lemmas.CText
import Verif.Lemmas.ClauseOrder
import Verif.Lemmas.Config
import Verif.Lemmas.Conv
import Verif.Lemmas.ConvExec
import Verif.Lemmas.ConvFlat
import Verif.Lemmas.ConvScalarFlat
import Verif.Lemmas.Dense
import Verif.Lemmas.Double
import Verif.Lemmas.Double2
import Verif.Lemmas.EndToEnd
import Verif.Lemmas.ExecGeneric
import Verif.Lemmas.Executor
import Verif.Lemmas.ExecutorDense
import Verif.Lemmas.Feedback
import Verif.Lemmas.Flat
import Verif.Lemmas.Fresh
import Verif.Lemmas.InferFlat
import Verif.Lemmas.Input
import Verif.Lemmas.Interrupt
import Verif.Lemmas.LargeBudget
import Verif.Lemmas.Layout
import Verif.Lemmas.Matching
import Verif.Lemmas.Memory
import Verif.Lemmas.Multi
import Verif.Lemmas.Neon
import Verif.Lemmas.NeonEval
import Verif.Lemmas.NeonFlat
import Verif.Lemmas.NeonPeriod
import Verif.Lemmas.NeonTrainer
import Verif.Lemmas.OnePatch
import Verif.Lemmas.Pace
import Verif.Lemmas.PaceOver
import Verif.Lemmas.PaceSparse
import Verif.Lemmas.PaceVec
import Verif.Lemmas.Pool
import Verif.Lemmas.PoolExec
import Verif.Lemmas.PoolExec2
import Verif.Lemmas.PoolExec3
import Verif.Lemmas.PoolExec4
import Verif.Lemmas.Predictor
import Verif.Lemmas.PySession
import Verif.Lemmas.PySparse
import Verif.Lemmas.Random
import Verif.Lemmas.RandomLinear
import Verif.Lemmas.Recode
import Verif.Lemmas.RecodeAvx
import Verif.Lemmas.RecodeNeon
import Verif.Lemmas.Renumber
import Verif.Lemmas.Resume
import Verif.Lemmas.ResumeConv
import Verif.Lemmas.RowOrder
import Verif.Lemmas.Ruleset
import Verif.Lemmas.Session
import Verif.Lemmas.SetS
import Verif.Lemmas.Settled
import Verif.Lemmas.Setup
import Verif.Lemmas.Sharing
import Verif.Lemmas.Sparse
import Verif.Lemmas.SparseExec
import Verif.Lemmas.SparseFeedback
import Verif.Lemmas.SparseFlat
import Verif.Lemmas.SparseRange
import Verif.Lemmas.SparseRules
import Verif.Lemmas.SparseState
import Verif.Lemmas.SparseStep
import Verif.Lemmas.SparseTrain
import Verif.Lemmas.SparseTrainer
import Verif.Lemmas.Start
import Verif.Lemmas.StateArrays
import Verif.Lemmas.StateArrays2
import Verif.Lemmas.StateArrays3
import Verif.Lemmas.StateArrays4
import Verif.Lemmas.Study
import Verif.Lemmas.Trainable
import Verif.Lemmas.Trainer
import Verif.Lemmas.WhatIf
import Verif.Lemmas.Writers
import Verif.Props.Avx2
import Verif.Props.AvxFlat
import Verif.Props.Backend
import Verif.Props.CText
import Verif.Props.ClauseOrder
import Verif.Props.Config
import Verif.Props.Conv
import Verif.Props.ConvExec
import Verif.Props.ConvFlat
import Verif.Props.ConvScalarFlat
import Verif.Props.Crash
import Verif.Props.Data
import Verif.Props.Dataset
import Verif.Props.Dense
import Verif.Props.Double
import Verif.Props.EndToEnd
import Verif.Props.Executor
import Verif.Props.Feedback
import Verif.Props.Files
import Verif.Props.Flat
import Verif.Props.Fresh
import Verif.Props.HpSearch
import Verif.Props.InferFlat
import Verif.Props.Input
import Verif.Props.Interrupt
import Verif.Props.Layout
import Verif.Props.Matching
import Verif.Props.Memory
import Verif.Props.Moved
import Verif.Props.Multi
import Verif.Props.Neon
import Verif.Props.NeonFlat
import Verif.Props.NeonPeriod
import Verif.Props.NeonTrainer
import Verif.Props.OnePatch
import Verif.Props.Pace
import Verif.Props.PaceStable
import Verif.Props.PaceStableConv
import Verif.Props.PaceStableNeon
import Verif.Props.PaceVotes
import Verif.Props.Pool
import Verif.Props.PoolExec
import Verif.Props.PredictArray
import Verif.Props.PredictNd
import Verif.Props.Predictor
import Verif.Props.PyGtc
import Verif.Props.PySession
import Verif.Props.PySparse
import Verif.Props.Random
import Verif.Props.Recode
import Verif.Props.RecodeAvx
import Verif.Props.RecodeNeon
import Verif.Props.Renumber
import Verif.Props.Resume
import Verif.Props.RowOrder
import Verif.Props.Ruleset
import Verif.Props.Session
import Verif.Props.SetS
import Verif.Props.Settled
import Verif.Props.Setup
import Verif.Props.Sharing
import Verif.Props.Sparse
import Verif.Props.SparseExec
import Verif.Props.SparseFeedback
import Verif.Props.SparseFlat
import Verif.Props.SparseParams
import Verif.Props.SparseState
import Verif.Props.SparseTrainer
import Verif.Props.Start
import Verif.Props.StateArrays
import Verif.Props.Study
import Verif.Props.Trainable
import Verif.Props.Trainer
import Verif.Props.WhatIf
import Verif.Props.Writers
