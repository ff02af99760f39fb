import Verif.SuperScene.Props
import Verif.Weights.Props
import Verif.Linked.Props
import Verif.Linked.Order
import Verif.Linked.Turn
import Verif.Dispatcher.Parent
import Verif.Dispatcher.Serial
import Verif.Dispatcher.Net
import Verif.Dispatcher.System
import Verif.Sources.Catalog
import Verif.Posterior.Props
import Verif.Posterior.Init
import Verif.Transform.Props
import Verif.Bounds.Props
import Verif.Storage.Files
import Verif.Storage.Calib
import Verif.Patch.Meta
import Verif.Patch.Static
import Verif.Kernel.Layout
import Verif.Kernel.PixelIntegral
import Verif.Kernel.Light
import Verif.Kernel.LightImage
import Verif.Device.History
import Verif.Device.Classes
import Verif.Device.Compose
import Verif.Device.Residuals
import Verif.Shear.Props
import Verif.Region.Search
import Verif.Region.Image
import Verif.Region.Fits
import Verif.Wcs.Props
import Verif.Chain.Props
import Verif.Config.Props
import Verif.Priors.Props
import Verif.Fluxes.Props
import Verif.Slow.Agree
import Verif.Postprocess.WriteImages
import Verif.Postprocess.CatalogProps
import Verif.Postprocess.Saved
import Verif.Postprocess.Postop
import Verif.Postprocess.HalfLight
import Verif.Postprocess.Reports
import Verif.Slow.MultiSlow
import Verif.Slow.Render
import Verif.Float.Position
import Verif.Float.Sums
import Verif.Float.Pixel
import Verif.Float.Build
import Verif.Float.Whole
import Verif.Float.Gradient
import Verif.Float.Jacobian
import Verif.Float.Param
import Verif.Slow.Psf
import Verif.Slow.Section
import Verif.Fitting.Props
import Verif.Fitting.Saved
import Verif.Fitting.Task
import Verif.SuperScene.Sky
import Verif.SuperScene.Turn
import Verif.Posterior.CheckGrad
import Verif.Fitting.Coherent
import Verif.Fitting.Other
import Verif.Fitting.Pymc
import Verif.Bounds.Start
import Verif.Wcs.Wrapper
import Verif.Shapes.Props
import Verif.Contour.Model
import Verif.Contour.Props
import Verif.Corner.Panels
import Verif.Quantile.Props
import Verif.Em.Fit
import Verif.Psfdata.Props
import Verif.Psfdata.Fit
import Verif.Psfdata.FitProps
import Verif.Psfdata.Figures
import Verif.Psfdata.SersicFit
import Verif.Profile.Props
import Verif.Profile.Mixture
import Verif.Profile.Smooth
import Verif.Profile.Spline
import Verif.Profile.Objective
import Verif.Profile.Smoothed
import Verif.SuperScene.Disk
import Verif.Dispatcher.Child
import Verif.Catalog.Append
import Verif.Fit.Evaluate
import Verif.Patch.Pack
import Verif.Config.Json
import Verif.Config.Logger
import Verif.Layout.Model
import Verif.Layout.Bytes
import Verif.Layout.Props
import Verif.Layout.Exchange
import Verif.Limits.Model
import Verif.Limits.Numbers
import Verif.Limits.Lines
import Verif.Limits.Props
import Verif.Limits.Texts
import Verif.Docs.Recipes
import Verif.Float.Special
import Verif.Float.Range
import Verif.Float.Ieee
import Verif.Float.Same
import Verif.Demo.Model
import Verif.Demo.Props
import Verif.Verification.Accept
import Verif.Verification.Names
import Verif.Imports.Model
import Verif.Imports.Texts
import Verif.Imports.Props
import Verif.Imports.Optional
import Verif.Imports.Claims
import Verif.Galsim.Model
import Verif.Galsim.Runs
import Verif.Galsim.Images
import Verif.Demo.Figures
import Verif.Demo.FigureProps
import Verif.Imports.DemoTexts
import Verif.Imports.Demos
import Verif.Imports.Bound
import Verif.Imports.Functions
import Verif.Imports.Lookups
import Verif.Demo.Flow
import Verif.Demo.FlowProps
import Verif.Postprocess.Shown
import Verif.Psfdata.Output
import Verif.Calls.Props
import Verif.Galsim.Compare
import Verif.Chain.Stats
import Verif.Demo.Scene
import Verif.Em.Ellipses
import Verif.Profile.Files
import Verif.Slow.Rebin
import Verif.Catalog.Columns
import Verif.Slow.Fixture
import Verif.Config.Switches
import Verif.Commands.Model
import Verif.Commands.Props
import Verif.Slow.Cutout
