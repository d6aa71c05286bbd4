import Verif.Arith
import Verif.Base
import Verif.F64
import Verif.Lemmas.AngularFacts
import Verif.Lemmas.AngularGrids
import Verif.Lemmas.AngularSymmetry
import Verif.Lemmas.BatcherApart
import Verif.Lemmas.BatcherDetermined
import Verif.Lemmas.BatcherForms
import Verif.Lemmas.BatcherLoop
import Verif.Lemmas.BatcherPerm
import Verif.Lemmas.BatcherStuck
import Verif.Lemmas.ChebReal
import Verif.Lemmas.ChebRiemann
import Verif.Lemmas.CompositeForms
import Verif.Lemmas.Distinct
import Verif.Lemmas.DistinctAng
import Verif.Lemmas.DistinctIcosa
import Verif.Lemmas.DistinctOcta
import Verif.Lemmas.DistinctWo
import Verif.Lemmas.DistinctWo1
import Verif.Lemmas.DistinctWo2
import Verif.Lemmas.EvalPn
import Verif.Lemmas.FactoryForms
import Verif.Lemmas.FloatAngular
import Verif.Lemmas.FloatApart
import Verif.Lemmas.FloatBatcher
import Verif.Lemmas.FloatBound
import Verif.Lemmas.FloatCalc
import Verif.Lemmas.FloatCheb
import Verif.Lemmas.FloatCheb2M
import Verif.Lemmas.FloatCheb3
import Verif.Lemmas.FloatGL
import Verif.Lemmas.FloatGLFew
import Verif.Lemmas.FloatGLOne
import Verif.Lemmas.FloatGLRule
import Verif.Lemmas.FloatGLThree
import Verif.Lemmas.FloatGLTwo
import Verif.Lemmas.FloatLegendre
import Verif.Lemmas.FloatLob
import Verif.Lemmas.FloatLobFew
import Verif.Lemmas.FloatLobFour
import Verif.Lemmas.FloatLobRule
import Verif.Lemmas.FloatMK
import Verif.Lemmas.FloatNewton
import Verif.Lemmas.FloatRadial
import Verif.Lemmas.FloatRadialBase
import Verif.Lemmas.FloatRel
import Verif.Lemmas.FloatShells
import Verif.Lemmas.FloatSphere
import Verif.Lemmas.FloatTA
import Verif.Lemmas.FloatUniform
import Verif.Lemmas.GaussApprox
import Verif.Lemmas.GaussRule
import Verif.Lemmas.GridConv
import Verif.Lemmas.GridCount
import Verif.Lemmas.IcosaCheck
import Verif.Lemmas.IcosaExact
import Verif.Lemmas.IcosaMoments1
import Verif.Lemmas.IcosaMoments2
import Verif.Lemmas.IcosaMoments3
import Verif.Lemmas.IcosaMoments4
import Verif.Lemmas.InvSqrtSeries
import Verif.Lemmas.Legendre
import Verif.Lemmas.LegendreAngles
import Verif.Lemmas.Loop
import Verif.Lemmas.NewtonForms
import Verif.Lemmas.NewtonLegendre
import Verif.Lemmas.NewtonLobatto
import Verif.Lemmas.NewtonRules
import Verif.Lemmas.NewtonStep
import Verif.Lemmas.NewtonWide
import Verif.Lemmas.OctaCheck
import Verif.Lemmas.OctaMoments1
import Verif.Lemmas.OctaMoments2
import Verif.Lemmas.OctaMoments3
import Verif.Lemmas.OctaMoments4
import Verif.Lemmas.PowVec
import Verif.Lemmas.PrimitiveForms
import Verif.Lemmas.PrunedConv
import Verif.Lemmas.RadialForms
import Verif.Lemmas.RadialGap
import Verif.Lemmas.RadialReal
import Verif.Lemmas.RadialRiemann
import Verif.Lemmas.RealRooted
import Verif.Lemmas.Riemann
import Verif.Lemmas.Round
import Verif.Lemmas.RuleSum
import Verif.Lemmas.SecondOrder
import Verif.Lemmas.Sharp
import Verif.Lemmas.SharpData
import Verif.Lemmas.SphereInt
import Verif.Lemmas.SphereVolume
import Verif.Lemmas.SphereZonal
import Verif.Lemmas.Sturm
import Verif.Lemmas.TableForms
import Verif.Lemmas.Trig
import Verif.Lemmas.WeightError
import Verif.Lemmas.WoBlock
import Verif.Lemmas.WoCheck
import Verif.Lemmas.WoExact
import Verif.Lemmas.WoMoments1
import Verif.Lemmas.WoMoments2
import Verif.Lemmas.WoMoments3
import Verif.Lemmas.WoMoments4
import Verif.Lemmas.WoMoments5
import Verif.Lemmas.WoMoments6
import Verif.Lemmas.WoMoments7
import Verif.Lemmas.WoMoments8
import Verif.Model.Angular
import Verif.Model.AngularData
import Verif.Model.AngularTables
import Verif.Model.Batcher
import Verif.Model.BatcherShare
import Verif.Model.BoundTransform
import Verif.Model.Composite
import Verif.Model.Factory
import Verif.Model.IcosaTables
import Verif.Model.Iterators
import Verif.Model.OctaTables
import Verif.Model.Primitive
import Verif.Model.Quadrature
import Verif.Model.Radial
import Verif.Model.TypeTags
import Verif.Model.Womersley.Base
import Verif.Model.Womersley.Grid
import Verif.Model.Womersley.Part01
import Verif.Model.Womersley.Part02
import Verif.Model.Womersley.Part03
import Verif.Model.Womersley.Part04
import Verif.Model.Womersley.Part05
import Verif.Model.Womersley.Part06
import Verif.Model.Womersley.Part07
import Verif.Model.Womersley.Part08
import Verif.Model.Womersley.Part09
import Verif.Model.Womersley.Part10
import Verif.Model.Womersley.Part11
import Verif.Model.Womersley.Part12
import Verif.Model.Womersley.Part13
import Verif.Model.Womersley.Part14
import Verif.Model.WomersleyTables
import Verif.Prop.Analytic
import Verif.Prop.AngularData
import Verif.Prop.AngularHoles
import Verif.Prop.AngularStability
import Verif.Prop.AngularSymmetry
import Verif.Prop.Batcher
import Verif.Prop.BatcherApart
import Verif.Prop.BatcherDetermined
import Verif.Prop.BatcherDouble
import Verif.Prop.BatcherFactoryPasses
import Verif.Prop.BatcherHang
import Verif.Prop.BatcherPasses
import Verif.Prop.BatcherShare
import Verif.Prop.BoundTransform
import Verif.Prop.ChebConvergence
import Verif.Prop.Chebyshev
import Verif.Prop.Chirality
import Verif.Prop.CutRadius
import Verif.Prop.DistinctPoints
import Verif.Prop.Factory
import Verif.Prop.FloatBatcher
import Verif.Prop.FloatBound
import Verif.Prop.FloatChebyshev
import Verif.Prop.FloatGrid
import Verif.Prop.FloatLobatto
import Verif.Prop.FloatNewton
import Verif.Prop.FloatRadial
import Verif.Prop.FloatRecenter
import Verif.Prop.FloatUniform
import Verif.Prop.GaussFunctions
import Verif.Prop.GridConvergence
import Verif.Prop.GridSecondOrder
import Verif.Prop.Iterators
import Verif.Prop.Legendre
import Verif.Prop.Nested
import Verif.Prop.Newton
import Verif.Prop.NewtonConvergence
import Verif.Prop.Periodic
import Verif.Prop.PlaneWave
import Verif.Prop.PointCount
import Verif.Prop.Product
import Verif.Prop.Pruned
import Verif.Prop.PrunedConvergence
import Verif.Prop.PrunedCount
import Verif.Prop.Pruning
import Verif.Prop.Radial
import Verif.Prop.RadialConvergence
import Verif.Prop.RadialDecay
import Verif.Prop.RadialReach
import Verif.Prop.SecondOrder
import Verif.Prop.Sharp
import Verif.Prop.SharpDegree
import Verif.Prop.ShellPotential
import Verif.Prop.Tables
import Verif.Prop.TypeTags
import Verif.Prop.Uniform
import Verif.Prop.UniqueRule
import Verif.Spec.Apart
import Verif.Spec.Batcher
import Verif.Spec.BatcherApart
import Verif.Spec.BatcherShare
import Verif.Spec.Composite
import Verif.Spec.Cube
import Verif.Spec.CutRadius
import Verif.Spec.EntireSeries
import Verif.Spec.Factory
import Verif.Spec.Float
import Verif.Spec.FloatApart
import Verif.Spec.FloatGrid
import Verif.Spec.GaussError
import Verif.Spec.GeometricSeries
import Verif.Spec.Legendre
import Verif.Spec.Nested
import Verif.Spec.Radial
import Verif.Spec.RadialDecay
import Verif.Spec.RadialPullback
import Verif.Spec.Rule
import Verif.Spec.ShellPotential
import Verif.Spec.Space
import Verif.Spec.Sphere
import Verif.Spec.SphereRule
import Verif.Spec.Symmetry
import Verif.Spec.TypeTags
import Verif.XReal
