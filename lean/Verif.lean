import Verif.Py.Err
import Verif.Py.Fl
import Verif.Py.Dict
import Verif.Py.Img
import Verif.Model.GetIntImgs
import Verif.Model.Temporal
import Verif.Spec.Stats
import Verif.Lemmas.GetIntImgs
import Verif.Lemmas.Temporal
import Verif.Props.C01_C06
import Verif.Py.Str
import Verif.Model.Parser
import Verif.Spec.Descriptor
import Verif.Lemmas.Text
import Verif.Lemmas.Parser
import Verif.Py.Num
import Verif.Props.C07_C12
import Verif.Model.DatasetGenerator
import Verif.Lemmas.Num
import Verif.Spec.Dataset
import Verif.Lemmas.DatasetGenerator
import Verif.Props.C13_C14
import Verif.Props.C65
import Verif.Model.Loader
import Verif.Spec.Loader
import Verif.Lemmas.Loader
import Verif.Props.C15_C16
import Verif.Model.Data
import Verif.Spec.Data
import Verif.Lemmas.Data
import Verif.Props.C17_C18
import Verif.Lemmas.Spatial
import Verif.Props.C19_C20
import Verif.Props.C17_Values
import Verif.Py.Array1
import Verif.Py.FlReal
import Verif.Model.Fit
import Verif.Model.FitErr
import Verif.Model.Results
import Verif.Model.Attrs
import Verif.Spec.Fit
import Verif.Spec.Results
import Verif.Lemmas.Fit
import Verif.Lemmas.Results
import Verif.Lemmas.Results2
import Verif.Props.C27_C28
import Verif.Props.C22_C24
import Verif.Props.C21_C25_C26
import Verif.Props.C29_C32
import Verif.Props.C33_C34
import Verif.Props.C35
import Verif.Props.C66
import Verif.Py.MImg
import Verif.Model.Histogram
import Verif.Model.HighPass
import Verif.Model.ResultsHist
import Verif.Model.Compress
import Verif.Model.FFT
import Verif.Spec.Histogram
import Verif.Spec.HighPass
import Verif.Spec.Compress
import Verif.Lemmas.Histogram
import Verif.Lemmas.HighPass
import Verif.Lemmas.ResultsHist
import Verif.Lemmas.FFT
import Verif.Props.C36
import Verif.Props.C37
import Verif.Props.C38_C39
import Verif.Props.C40
import Verif.Props.C41_C42
import Verif.Model.Xml
import Verif.Spec.Xml
import Verif.Lemmas.Xml
import Verif.Props.C43
import Verif.Model.Compare
import Verif.Props.C45
import Verif.Spec.Compare
import Verif.Lemmas.Compare
import Verif.Props.C44
import Verif.Model.Info
import Verif.Spec.Info
import Verif.Lemmas.Info
import Verif.Props.C46_C47
import Verif.Model.Camera
import Verif.Spec.Camera
import Verif.Props.C48
import Verif.Props.C49
import Verif.Model.Radiance
import Verif.Spec.Radiance
import Verif.Props.C50
import Verif.Props.C51_C52
import Verif.Model.Tile
import Verif.Spec.Tile
import Verif.Props.C53
import Verif.Model.Search
import Verif.Spec.Search
import Verif.Props.C54_C55
import Verif.Model.Points
import Verif.Props.C56
import Verif.Model.Report
import Verif.Spec.Report
import Verif.Props.C57
import Verif.Model.Missing
import Verif.Props.C61
import Verif.Model.ResultsDocs
import Verif.Model.Template
import Verif.Props.C69
import Verif.Model.Plotter
import Verif.Props.C58
import Verif.Model.Plots
import Verif.Spec.Plots
import Verif.Props.C59
import Verif.Props.C59Example
import Verif.Props.C70
import Verif.Model.Profiles
import Verif.Spec.Profiles
import Verif.Props.C60
import Verif.Spec.Affine
import Verif.Spec.Units
import Verif.Model.Pipeline
import Verif.Lemmas.Affine
import Verif.Lemmas.AffineData
import Verif.Lemmas.AffineData2
import Verif.Lemmas.AffineResults
import Verif.Lemmas.AffineFit
import Verif.Lemmas.AffineHist
import Verif.Lemmas.AffineRead
import Verif.Lemmas.AffinePipeline
import Verif.Props.C62_C64
import Verif.Props.C63
import Verif.Props.C62Example
import Verif.Model.Spectrograms
import Verif.Model.HistModel
import Verif.Props.C71
import Verif.Props.C72
import Verif.Props.C73
import Verif.Props.C74
import Verif.Model.Qe
import Verif.Props.C75
import Verif.Props.C76
import Verif.Props.C77
import Verif.Model.Export
import Verif.Props.C78
import Verif.Spec.Depend
import Verif.Props.C79
import Verif.Props.C79Example
import Verif.Spec.Calib
import Verif.Lemmas.Calib
import Verif.Lemmas.CalibData
import Verif.Props.C80
import Verif.Spec.Noise
import Verif.Lemmas.Noise
import Verif.Props.C81
import Verif.Props.C81Example
import Verif.Model.ReportDirs
import Verif.Spec.ReportDirs
import Verif.Lemmas.ReportDirs
import Verif.Props.C82
import Verif.Props.C82Example
import Verif.Py.Rounding
import Verif.Model.Rounded
import Verif.Props.C83
import Verif.Props.C83Example
import Verif.Lemmas.Rounding
import Verif.Props.C84
import Verif.Props.C84Example
import Verif.Model.Dataset
import Verif.Spec.Shots
import Verif.Lemmas.Dataset
import Verif.Props.C85
import Verif.Props.C85Example
import Verif.Spec.CameraNoise
import Verif.Lemmas.Laws
import Verif.Lemmas.Quantiser
import Verif.Lemmas.ClipNoise
import Verif.Props.C86
import Verif.Props.C86Images
import Verif.Props.C86Measured
import Verif.Props.C86Example
import Verif.Model.Print
import Verif.Spec.Print
import Verif.Props.C87
import Verif.Model.CompareText
import Verif.Spec.CompareText
import Verif.Props.C88
import Verif.Props.C89
import Verif.Props.C90
import Verif.Props.C91
import Verif.Props.C91Camera
import Verif.Props.C91Example
import Verif.Spec.ReportText
import Verif.Spec.Written
import Verif.Lemmas.Written
import Verif.Model.Jinja
import Verif.Model.ReportTex
import Verif.Model.ReportText
import Verif.Lemmas.Jinja
import Verif.Lemmas.JinjaOrder
import Verif.Props.C92
import Verif.Props.C92Complete
import Verif.Props.C92Files
import Verif.Props.C92First
import Verif.Props.C92Results
import Verif.Props.C92Session
import Verif.Props.C92Sheet
import Verif.Props.C92Table
import Verif.Props.C93
import Verif.Props.C87Error
import Verif.Spec.Solver
import Verif.Props.C94
import Verif.Model.RoundedResults
import Verif.Spec.Close
import Verif.Lemmas.Close
import Verif.Props.C95
import Verif.Props.C95Data
import Verif.Props.C95Example
import Verif.Model.RoundedSpatial
import Verif.Spec.OffBy
import Verif.Lemmas.OffBy
import Verif.Props.C96
import Verif.Props.C96Data
import Verif.Props.C96Float
import Verif.Props.C96Example
import Verif.Model.RoundedLinearity
import Verif.Spec.LinearityScale
import Verif.Lemmas.RoundedFit
import Verif.Props.C97
import Verif.Props.C97Decibel
import Verif.Props.C97Float
import Verif.Model.AxisLimits
import Verif.Spec.Axis
import Verif.Props.C98
import Verif.Props.C98Snr
import Verif.Spec.Nearby
import Verif.Lemmas.Nearby
import Verif.Lemmas.NearbyIndex
import Verif.Props.C99
import Verif.Props.C99Example
import Verif.Props.C99Spatial
import Verif.Props.C99Linear
import Verif.Spec.Plausible
import Verif.Props.C100
import Verif.Props.C100Example
import Verif.Model.RoundedDark
import Verif.Spec.SignedClose
import Verif.Props.C101
import Verif.Props.C101Data
import Verif.Props.C101Example
import Verif.Model.RoundedMeasurement
import Verif.Spec.FromImages
import Verif.Props.C102
import Verif.Props.C102Data
import Verif.Props.C102Example
import Verif.Py.Chars
import Verif.Model.JinjaLexer
import Verif.Model.TemplateFiles
import Verif.Spec.Templates
import Verif.Lemmas.JinjaLexer
import Verif.Lemmas.JinjaParser
import Verif.Lemmas.JinjaSource
import Verif.Props.C103
import Verif.Model.AxisLabels
import Verif.Spec.PlotUnits
import Verif.Lemmas.PlotUnits
import Verif.Props.C104
import Verif.Props.C104Example
import Verif.Props.C104Snr
import Verif.Py.Ieee
import Verif.Model.IeeeData
import Verif.Lemmas.Ieee
import Verif.Props.C105
import Verif.Props.C105Example
import Verif.Model.IeeeResults
import Verif.Lemmas.IeeeMag
import Verif.Props.C106
import Verif.Props.C106Example
import Verif.Props.C106Zero
import Verif.Model.IeeeSpatial
import Verif.Props.C107
import Verif.Props.C107Example
import Verif.Spec.DarkFit
import Verif.Model.IeeeDark
import Verif.Props.C108
import Verif.Props.C108Float
import Verif.Props.C108Example
import Verif.Model.IeeeLinearity
import Verif.Props.C109Fit
import Verif.Props.C109
import Verif.Props.C109Decibel
import Verif.Props.C109Example
import Verif.Model.HistAxes
import Verif.Props.C110
import Verif.Props.Cases
import Verif.Props.C111
