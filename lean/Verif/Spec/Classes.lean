import Verif.Model.Basic

/-! Class ids and the classes registered for them, listed from the class statements (`class_id = b'...'` under
`@utils.register_class`) of src/avb. -/

namespace Avb.Spec

/-- Class id, module and name. -/
def registered : List (String × String) := [
  ("ATTR", "avb.attributes.Attributes"),
  ("PRLS", "avb.attributes.ParameterList"),
  ("TMCS", "avb.attributes.TimeCrumbList"),
  ("BVst", "avb.bin.BinViewSetting"),
  ("ABIN", "avb.bin.Bin"),
  ("BINF", "avb.bin.BinFirst"),
  ("SEQU", "avb.components.Sequence"),
  ("SCLP", "avb.components.SourceClip"),
  ("TCCP", "avb.components.Timecode"),
  ("ECCP", "avb.components.Edgecode"),
  ("TRKR", "avb.components.TrackRef"),
  ("PRCL", "avb.components.ParamClip"),
  ("CTRL", "avb.components.ControlClip"),
  ("FILL", "avb.components.Filler"),
  ("MDES", "avb.essence.MediaDescriptor"),
  ("MDTP", "avb.essence.TapeDescriptor"),
  ("MDFM", "avb.essence.FilmDescriptor"),
  ("MDNG", "avb.essence.NagraDescriptor"),
  ("MDFL", "avb.essence.MediaFileDescriptor"),
  ("MULD", "avb.essence.MultiDescriptor"),
  ("WAVE", "avb.essence.WaveDescriptor"),
  ("AIFC", "avb.essence.AIFCDescriptor"),
  ("PCMA", "avb.essence.PCMADescriptor"),
  ("MPGA", "avb.essence.MPGADescriptor"),
  ("DIDD", "avb.essence.DIDDescriptor"),
  ("CDCI", "avb.essence.CDCIDescriptor"),
  ("MPGI", "avb.essence.MPGIDescriptor"),
  ("JPED", "avb.essence.JPEGDescriptor"),
  ("RGBA", "avb.essence.RGBADescriptor"),
  ("DATD", "avb.essence.DataDescriptor"),
  ("ANCD", "avb.essence.ANCDataDescriptor"),
  ("FILE", "avb.misc.MacFileLocator"),
  ("WINF", "avb.misc.WinFileLocator"),
  ("URLL", "avb.misc.URLLocator"),
  ("GRFX", "avb.misc.GraphicEffect"),
  ("SHLP", "avb.misc.ShapeList"),
  ("CCFX", "avb.misc.ColorCorrectionEffect"),
  ("FXPS", "avb.misc.EffectParamList"),
  ("AVUP", "avb.misc.CFUserParam"),
  ("PRIT", "avb.misc.ParameterItem"),
  ("MSML", "avb.misc.MSMLocator"),
  ("APOS", "avb.misc.Position"),
  ("ABOB", "avb.misc.BOBPosition"),
  ("DIDP", "avb.misc.DIDPosition"),
  ("MPGP", "avb.misc.MPGPosition"),
  ("MCBR", "avb.misc.BinRef"),
  ("MCMR", "avb.misc.MobRef"),
  ("TMBC", "avb.misc.Marker"),
  ("TKMN", "avb.misc.TrackerManager"),
  ("TKDS", "avb.misc.TrackerDataSlot"),
  ("TKPS", "avb.misc.TrackerParameterSlot"),
  ("TKDA", "avb.misc.TrackerData"),
  ("TKPA", "avb.misc.TrackerParameter"),
  ("TRKG", "avb.trackgroups.TrackGroup"),
  ("TKFX", "avb.trackgroups.TrackEffect"),
  ("PVOL", "avb.trackgroups.PanVolumeEffect"),
  ("ASPI", "avb.trackgroups.AudioSuitePluginEffect"),
  ("EQMB", "avb.trackgroups.EqualizerMultiBand"),
  ("MASK", "avb.trackgroups.CaptureMask"),
  ("STRB", "avb.trackgroups.StrobeEffect"),
  ("SPED", "avb.trackgroups.MotionEffect"),
  ("REPT", "avb.trackgroups.Repeat"),
  ("RSET", "avb.trackgroups.EssenceGroup"),
  ("TNFX", "avb.trackgroups.TransitionEffect"),
  ("SLCT", "avb.trackgroups.Selector"),
  ("CMPO", "avb.trackgroups.Composition")]

end Avb.Spec
