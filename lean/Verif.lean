import Verif.Props.Sign
import Verif.Props.Api
import Verif.Props.ParamSets
import Verif.Props.Trees
import Verif.Props.Wots
import Verif.Props.Fors
import Verif.Props.Address
import Verif.Props.Codec
import Verif.Props.Sha2
import Verif.Props.Shake
import Verif.Props.Haraka
import Verif.Props.Hash
import Verif.Props.InPlace
import Verif.Props.Randombytes
import Verif.Props.Rng
import Verif.Props.RngKat
import Verif.Props.Forge
import Verif.Props.Forgery
import Verif.Props.OneTime
import Verif.Props.Parallel
import Verif.Props.ShakeLanes
import Verif.Props.HarakaAesni
import Verif.Props.Sha2Lanes
import Verif.Props.LanesInPlace
import Verif.Props.Shake128
import Verif.Props.Kat
import Verif.Props.Tests
import Verif.Props.ForsTest
import Verif.Props.Leak
import Verif.Props.LeakOpt
import Verif.Props.Bench
import Verif.Props.Count
import Verif.Props.Prims
import Verif.Props.PrimsX
import Verif.Props.Bound
import Verif.Props.Coverage
import Verif.Spec.Interactive
import Verif.Proof.Interactive
import Verif.Proof.Cone
import Verif.Proof.Sharp
import Verif.Proof.SharpCount
import Verif.Proof.SharpCover
import Verif.Props.Interactive
import Verif.Spec.Game
import Verif.Proof.Game
import Verif.Props.Game
import Verif.Spec.Oracle
import Verif.Proof.Resample
import Verif.Proof.Values
import Verif.Proof.Hidden
import Verif.Proof.Seek
import Verif.Proof.Checked
import Verif.Proof.Breach
import Verif.Proof.OracleBound
import Verif.Props.Oracle
import Verif.Proof.Chosen
import Verif.Props.Chosen
import Verif.Proof.VectorsScript
import Verif.Props.Vectors
import Verif.Proof.Many
import Verif.Props.Many
import Verif.Props.LeakApi
import Verif.Proof.SeekMany
import Verif.Proof.SharedBound
import Verif.Proof.GlobalRun
import Verif.Proof.KeyCongr
import Verif.Proof.GlobalBound
import Verif.Props.Shared
import Verif.Props.Global
import Verif.Model.Ci
import Verif.Proof.CiJobs
import Verif.Props.Ci
