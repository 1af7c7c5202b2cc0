import Verif.Model.Options
/-! # The options of the commands: generated from the `click.option` and `click.argument` lines of the sources

The `--help` option that Click adds to every command is left out. -/

namespace Pgkyl.Options

/-- commands/status.py:6-12: the options of `activate`. -/
def cmd_activate : Command where
  name := "activate".toList
  opts := [⟨"tag".toList, .value, ["--tag".toList, "-t".toList], []⟩,
    ⟨"index".toList, .value, ["--index".toList, "-i".toList], []⟩,
    ⟨"focused".toList, .flag "True".toList, ["--focused".toList, "-f".toList], []⟩]

/-- commands/agyro.py:8-19: the options of `agyro`. -/
def cmd_agyro : Command where
  name := "agyro".toList
  opts := [⟨"measure".toList, .value, ["--measure".toList, "-m".toList], []⟩,
    ⟨"pressure".toList, .value, ["--pressure".toList, "-p".toList], []⟩,
    ⟨"bfield".toList, .value, ["--bfield".toList, "-b".toList], []⟩,
    ⟨"tag".toList, .value, ["--tag".toList, "-t".toList], []⟩,
    ⟨"label".toList, .value, ["--label".toList, "-l".toList], []⟩]

/-- commands/agyro.py:42-51: the options of `mom-agyro`. -/
def cmd_mom_agyro : Command where
  name := "mom-agyro".toList
  opts := [⟨"measure".toList, .value, ["--measure".toList, "-m".toList], []⟩,
    ⟨"species".toList, .value, ["--species".toList, "-s".toList], []⟩,
    ⟨"field".toList, .value, ["--field".toList, "-f".toList], []⟩,
    ⟨"tag".toList, .value, ["--tag".toList, "-t".toList], []⟩,
    ⟨"label".toList, .value, ["--label".toList, "-l".toList], []⟩]

/-- commands/animate.py:90-176: the options of `animate`. -/
def cmd_animate : Command where
  name := "animate".toList
  opts := [⟨"use".toList, .value, ["--use".toList, "-u".toList], []⟩,
    ⟨"grouptags".toList, .flag "True".toList, ["--grouptags".toList], []⟩,
    ⟨"squeeze".toList, .flag "True".toList, ["--squeeze".toList, "-s".toList], []⟩,
    ⟨"subplots".toList, .flag "True".toList, ["--subplots".toList, "-b".toList], []⟩,
    ⟨"nSubplotRow".toList, .value, ["--nsubplotrow".toList], []⟩,
    ⟨"nSubplotCol".toList, .value, ["--nsubplotcol".toList], []⟩,
    ⟨"transpose".toList, .flag "True".toList, ["--transpose".toList], []⟩,
    ⟨"contour".toList, .flag "True".toList, ["-c".toList, "--contour".toList], []⟩,
    ⟨"clevels".toList, .value, ["--clevels".toList], []⟩,
    ⟨"quiver".toList, .flag "True".toList, ["-q".toList, "--quiver".toList], []⟩,
    ⟨"streamline".toList, .flag "True".toList, ["-l".toList, "--streamline".toList], []⟩,
    ⟨"sdensity".toList, .value, ["--sdensity".toList], []⟩,
    ⟨"arrowstyle".toList, .value, ["--arrowstyle".toList], []⟩,
    ⟨"group".toList, .value, ["-g".toList, "--group".toList], []⟩,
    ⟨"scatter".toList, .flag "True".toList, ["-s".toList, "--scatter".toList], []⟩,
    ⟨"markersize".toList, .value, ["--markersize".toList], []⟩,
    ⟨"linewidth".toList, .value, ["--linewidth".toList], []⟩,
    ⟨"linestyle".toList, .value, ["--linestyle".toList], []⟩,
    ⟨"color".toList, .value, ["--color".toList], []⟩,
    ⟨"style".toList, .value, ["--style".toList], []⟩,
    ⟨"diverging".toList, .flag "True".toList, ["-d".toList, "--diverging".toList], []⟩,
    ⟨"arg".toList, .value, ["--arg".toList], []⟩,
    ⟨"fixaspect".toList, .flag "True".toList, ["-a".toList, "--fix-aspect".toList], []⟩,
    ⟨"logx".toList, .flag "True".toList, ["--logx".toList], []⟩,
    ⟨"logy".toList, .flag "True".toList, ["--logy".toList], []⟩,
    ⟨"logz".toList, .flag "True".toList, ["--logz".toList], []⟩,
    ⟨"xshift".toList, .value, ["--xshift".toList], []⟩,
    ⟨"yshift".toList, .value, ["--yshift".toList], []⟩,
    ⟨"zshift".toList, .value, ["--zshift".toList], []⟩,
    ⟨"xscale".toList, .value, ["--xscale".toList], []⟩,
    ⟨"yscale".toList, .value, ["--yscale".toList], []⟩,
    ⟨"zscale".toList, .value, ["--zscale".toList], []⟩,
    ⟨"float".toList, .flag "True".toList, ["--float".toList], []⟩,
    ⟨"xmax".toList, .value, ["--xmax".toList], []⟩,
    ⟨"xmin".toList, .value, ["--xmin".toList], []⟩,
    ⟨"ymax".toList, .value, ["--ymax".toList], []⟩,
    ⟨"ymin".toList, .value, ["--ymin".toList], []⟩,
    ⟨"zmax".toList, .value, ["--zmax".toList], []⟩,
    ⟨"zmin".toList, .value, ["--zmin".toList], []⟩,
    ⟨"xlim".toList, .value, ["--xlim".toList], []⟩,
    ⟨"ylim".toList, .value, ["--ylim".toList], []⟩,
    ⟨"zlim".toList, .value, ["--zlim".toList], []⟩,
    ⟨"cutoffglobalrange".toList, .value, ["--cutoffglobalrange".toList, "-cogr".toList], []⟩,
    ⟨"legend".toList, .flag "True".toList, ["--legend".toList], ["--no-legend".toList]⟩,
    ⟨"colorbar".toList, .flag "True".toList, ["--colorbar".toList], ["--no-colorbar".toList]⟩,
    ⟨"forcelegend".toList, .flag "True".toList, ["--force-legend".toList], []⟩,
    ⟨"xlabel".toList, .value, ["-x".toList, "--xlabel".toList], []⟩,
    ⟨"ylabel".toList, .value, ["-y".toList, "--ylabel".toList], []⟩,
    ⟨"clabel".toList, .value, ["--clabel".toList], []⟩,
    ⟨"title".toList, .value, ["--title".toList], []⟩,
    ⟨"notitle".toList, .flag "True".toList, ["--notitle".toList], []⟩,
    ⟨"interval".toList, .value, ["-i".toList, "--interval".toList], []⟩,
    ⟨"save".toList, .flag "True".toList, ["--save".toList], []⟩,
    ⟨"saveas".toList, .value, ["--saveas".toList], []⟩,
    ⟨"fps".toList, .value, ["--fps".toList], []⟩,
    ⟨"dpi".toList, .value, ["--dpi".toList], []⟩,
    ⟨"edgecolors".toList, .value, ["-e".toList, "--edgecolors".toList], []⟩,
    ⟨"showgrid".toList, .flag "True".toList, ["--showgrid".toList], ["--no-showgrid".toList]⟩,
    ⟨"collected".toList, .flag "True".toList, ["--collected".toList], []⟩,
    ⟨"hashtag".toList, .flag "True".toList, ["--hashtag".toList], []⟩,
    ⟨"show".toList, .flag "True".toList, ["--show".toList], ["--no-show".toList]⟩,
    ⟨"saveframes".toList, .value, ["--saveframes".toList], []⟩,
    ⟨"figsize".toList, .value, ["--figsize".toList], []⟩,
    ⟨"multiblock".toList, .flag "True".toList, ["-m".toList, "--multiblock".toList], []⟩]

/-- commands/collect.py:8-21: the options of `collect`. -/
def cmd_collect : Command where
  name := "collect".toList
  opts := [⟨"sumdata".toList, .flag "True".toList, ["-s".toList, "--sumdata".toList], []⟩,
    ⟨"period".toList, .value, ["-p".toList, "--period".toList], []⟩,
    ⟨"offset".toList, .value, ["--offset".toList], []⟩,
    ⟨"chunk".toList, .value, ["-c".toList, "--chunk".toList], []⟩,
    ⟨"use".toList, .value, ["--use".toList, "-u".toList], []⟩,
    ⟨"tag".toList, .value, ["--tag".toList, "-t".toList], []⟩,
    ⟨"label".toList, .value, ["--label".toList, "-l".toList], []⟩]

/-- commands/current.py:9-17: the options of `current`. -/
def cmd_current : Command where
  name := "current".toList
  opts := [⟨"qbym".toList, .value, ["--qbym".toList, "-q".toList], []⟩,
    ⟨"use".toList, .value, ["--use".toList, "-u".toList], []⟩,
    ⟨"tag".toList, .value, ["--tag".toList, "-t".toList], []⟩,
    ⟨"label".toList, .value, ["--label".toList, "-l".toList], []⟩]

/-- commands/status.py:40-46: the options of `deactivate`. -/
def cmd_deactivate : Command where
  name := "deactivate".toList
  opts := [⟨"tag".toList, .value, ["--tag".toList, "-t".toList], []⟩,
    ⟨"index".toList, .value, ["--index".toList, "-i".toList], []⟩,
    ⟨"focused".toList, .flag "True".toList, ["--focused".toList, "-f".toList], []⟩]

/-- commands/differentiate.py:8-20: the options of `differentiate`. -/
def cmd_differentiate : Command where
  name := "differentiate".toList
  opts := [⟨"basis_type".toList, .value, ["--basis_type".toList, "-b".toList], []⟩,
    ⟨"poly_order".toList, .value, ["--poly_order".toList, "-p".toList], []⟩,
    ⟨"interp".toList, .value, ["--interp".toList, "-i".toList], []⟩,
    ⟨"direction".toList, .value, ["--direction".toList, "-d".toList], []⟩,
    ⟨"read".toList, .value, ["--read".toList, "-r".toList], []⟩,
    ⟨"use".toList, .value, ["--use".toList, "-u".toList], []⟩,
    ⟨"tag".toList, .value, ["--tag".toList, "-t".toList], []⟩,
    ⟨"label".toList, .value, ["--label".toList, "-l".toList], []⟩]

/-- commands/energetics.py:10-17: the options of `energetics`. -/
def cmd_energetics : Command where
  name := "energetics".toList
  opts := [⟨"elc".toList, .value, ["--elc".toList, "-e".toList], []⟩,
    ⟨"ion".toList, .value, ["--ion".toList, "-i".toList], []⟩,
    ⟨"field".toList, .value, ["--field".toList, "-f".toList], []⟩,
    ⟨"tag".toList, .value, ["--tag".toList, "-t".toList], []⟩,
    ⟨"label".toList, .value, ["--label".toList, "-l".toList], []⟩]

/-- commands/euler.py:9-19: the options of `euler`. -/
def cmd_euler : Command where
  name := "euler".toList
  opts := [⟨"use".toList, .value, ["--use".toList, "-u".toList], []⟩,
    ⟨"gas_gamma".toList, .value, ["-g".toList, "--gas_gamma".toList], []⟩,
    ⟨"variable_name".toList, .value, ["-v".toList, "--variable_name".toList], []⟩,
    ⟨"tag".toList, .value, ["--tag".toList, "-t".toList], []⟩,
    ⟨"label".toList, .value, ["--label".toList, "-l".toList], []⟩]

/-- commands/mhd.py:9-22: the options of `mhd`. -/
def cmd_mhd : Command where
  name := "mhd".toList
  opts := [⟨"use".toList, .value, ["--use".toList, "-u".toList], []⟩,
    ⟨"mu0".toList, .value, ["--mu0".toList, "-m".toList], []⟩,
    ⟨"gas_gamma".toList, .value, ["--gas_gamma".toList, "-g".toList], []⟩,
    ⟨"variable_name".toList, .value, ["--variable_name".toList, "-v".toList], []⟩,
    ⟨"tag".toList, .value, ["--tag".toList, "-t".toList], []⟩,
    ⟨"label".toList, .value, ["--label".toList, "-l".toList], []⟩]

/-- commands/ev.py:156-164: the options of `ev`. -/
def cmd_ev : Command where
  name := "ev".toList
  opts := [⟨"tag".toList, .value, ["--tag".toList, "-t".toList], []⟩,
    ⟨"label".toList, .value, ["--label".toList, "-l".toList], []⟩,
    ⟨"all".toList, .flag "True".toList, ["--all".toList, "-a".toList], []⟩]
  args := ["chain".toList]

/-- commands/extractinput.py:7-10: the options of `extractinput`. -/
def cmd_extractinput : Command where
  name := "extractinput".toList
  opts := [⟨"use".toList, .value, ["--use".toList, "-u".toList], []⟩]

/-- commands/fft.py:8-17: the options of `fft`. -/
def cmd_fft : Command where
  name := "fft".toList
  opts := [⟨"psd".toList, .flag "True".toList, ["-p".toList, "--psd".toList], []⟩,
    ⟨"iso".toList, .flag "True".toList, ["-i".toList, "--iso".toList], []⟩,
    ⟨"use".toList, .value, ["--use".toList, "-u".toList], []⟩,
    ⟨"tag".toList, .value, ["--tag".toList, "-t".toList], []⟩,
    ⟨"label".toList, .value, ["--label".toList, "-l".toList], []⟩]

/-- commands/gk_nodes.py:73-114: the options of `gk-nodes`. -/
def cmd_gk_nodes : Command where
  name := "gk-nodes".toList
  opts := [⟨"name".toList, .value, ["--name".toList, "-n".toList], []⟩,
    ⟨"path".toList, .value, ["--path".toList, "-p".toList], []⟩,
    ⟨"multib".toList, .optional "-1".toList, ["--multib".toList, "-m".toList], []⟩,
    ⟨"nodes_file".toList, .value, ["--nodes_file".toList], []⟩,
    ⟨"psi_file".toList, .value, ["--psi_file".toList], []⟩,
    ⟨"wall_file".toList, .value, ["--wall_file".toList], []⟩,
    ⟨"contour".toList, .flag "True".toList, ["--contour".toList, "-c".toList], []⟩,
    ⟨"clevels".toList, .value, ["--clevels".toList], []⟩,
    ⟨"cnlevels".toList, .value, ["--cnlevels".toList], []⟩,
    ⟨"fixaspect".toList, .flag "True".toList, ["--fix_aspect".toList, "-a".toList], []⟩,
    ⟨"xlim".toList, .value, ["--xlim".toList], []⟩,
    ⟨"ylim".toList, .value, ["--ylim".toList], []⟩,
    ⟨"xlabel".toList, .value, ["--xlabel".toList], []⟩,
    ⟨"ylabel".toList, .value, ["--ylabel".toList], []⟩,
    ⟨"zlabel".toList, .value, ["--zlabel".toList], []⟩,
    ⟨"title".toList, .value, ["--title".toList], []⟩,
    ⟨"indent_left".toList, .value, ["--indent_left".toList], []⟩,
    ⟨"add_width".toList, .value, ["--add_width".toList], []⟩,
    ⟨"multib_unicolor".toList, .flag "True".toList, ["--multib_unicolor".toList], []⟩,
    ⟨"saveas".toList, .value, ["--saveas".toList], []⟩,
    ⟨"no_show".toList, .flag "True".toList, ["--no_show".toList], []⟩]

/-- commands/gk_distf.py:154-187: the options of `gk-distf`. -/
def cmd_gk_distf : Command where
  name := "gk-distf".toList
  opts := [⟨"name".toList, .value, ["--name".toList, "-n".toList], []⟩,
    ⟨"species".toList, .value, ["--species".toList, "-s".toList], []⟩,
    ⟨"suffix".toList, .value, ["--suffix".toList], []⟩,
    ⟨"jf_file".toList, .value, ["--jf-file".toList], []⟩,
    ⟨"jacobvel_file".toList, .value, ["--jacobvel-file".toList], []⟩,
    ⟨"jacobtot_inv_file".toList, .value, ["--jacobtot-inv-file".toList], []⟩,
    ⟨"frame".toList, .value, ["--frame".toList, "-f".toList], []⟩,
    ⟨"interp".toList, .value, ["--interp".toList, "-i".toList], []⟩,
    ⟨"c2p_vel".toList, .flag "".toList, ["--c2p-vel".toList, "-v".toList], []⟩,
    ⟨"mc2nu".toList, .flag "".toList, ["--mc2nu".toList, "-m".toList], []⟩,
    ⟨"mapc2p".toList, .flag "".toList, ["--mapc2p".toList, "-p".toList], []⟩,
    ⟨"block".toList, .value, ["--block".toList, "-b".toList], []⟩,
    ⟨"tag".toList, .value, ["--tag".toList, "-t".toList], []⟩]

/-- commands/grid.py:8-14: the options of `grid`. -/
def cmd_grid : Command where
  name := "grid".toList
  opts := [⟨"use".toList, .value, ["--use".toList, "-u".toList], []⟩,
    ⟨"tag".toList, .value, ["--tag".toList, "-t".toList], []⟩,
    ⟨"label".toList, .value, ["--label".toList, "-l".toList], []⟩,
    ⟨"read".toList, .value, ["--read".toList, "-r".toList], []⟩]

/-- commands/growth.py:12-22: the options of `growth`. -/
def cmd_growth : Command where
  name := "growth".toList
  opts := [⟨"use".toList, .value, ["--use".toList, "-u".toList], []⟩,
    ⟨"guess".toList, .value, ["-g".toList, "--guess".toList], []⟩,
    ⟨"minn".toList, .value, ["--minn".toList], []⟩,
    ⟨"dataset".toList, .flag "True".toList, ["-d".toList, "--dataset".toList], []⟩,
    ⟨"instantaneous".toList, .flag "True".toList, ["-i".toList, "--instantaneous".toList], []⟩,
    ⟨"dir".toList, .value, ["--dir".toList], []⟩,
    ⟨"tag".toList, .value, ["--tag".toList, "-t".toList], []⟩,
    ⟨"label".toList, .value, ["--label".toList, "-l".toList], []⟩]

/-- commands/info.py:6-11: the options of `info`. -/
def cmd_info : Command where
  name := "info".toList
  opts := [⟨"use".toList, .value, ["-u".toList, "--use".toList], []⟩,
    ⟨"compact".toList, .flag "True".toList, ["-c".toList, "--compact".toList], []⟩,
    ⟨"allsets".toList, .flag "True".toList, ["-a".toList, "--allsets".toList], []⟩]

/-- commands/integrate.py:9-15: the options of `integrate`. -/
def cmd_integrate : Command where
  name := "integrate".toList
  opts := [⟨"use".toList, .value, ["--use".toList, "-u".toList], []⟩,
    ⟨"tag".toList, .value, ["--tag".toList, "-t".toList], []⟩,
    ⟨"label".toList, .value, ["--label".toList, "-l".toList], []⟩]
  args := ["axis".toList]

/-- commands/interpolate.py:8-20: the options of `interpolate`. -/
def cmd_interpolate : Command where
  name := "interpolate".toList
  opts := [⟨"basis_type".toList, .value, ["--basis_type".toList, "-b".toList], []⟩,
    ⟨"poly_order".toList, .value, ["--poly_order".toList, "-p".toList], []⟩,
    ⟨"interp".toList, .value, ["--interp".toList, "-i".toList], []⟩,
    ⟨"use".toList, .value, ["--use".toList, "-u".toList], []⟩,
    ⟨"tag".toList, .value, ["--tag".toList, "-t".toList], []⟩,
    ⟨"label".toList, .value, ["--label".toList, "-l".toList], []⟩,
    ⟨"read".toList, .value, ["--read".toList, "-r".toList], []⟩]

/-- commands/laguerre_compose.py:8-15: the options of `laguerrecompose`. -/
def cmd_laguerrecompose : Command where
  name := "laguerrecompose".toList
  opts := [⟨"distribution".toList, .value, ["--distribution".toList, "-f".toList], []⟩,
    ⟨"tm".toList, .value, ["--tm".toList], []⟩,
    ⟨"tag".toList, .value, ["--tag".toList, "-t".toList], []⟩,
    ⟨"label".toList, .value, ["--label".toList, "-l".toList], []⟩]

/-- commands/listoutputs.py:8-12: the options of `listoutputs`. -/
def cmd_listoutputs : Command where
  name := "listoutputs".toList
  opts := [⟨"extensions".toList, .value, ["--extensions".toList, "-e".toList], []⟩]

/-- commands/load.py:36-59: the options of `load`. -/
def cmd_load : Command where
  name := "load".toList
  opts := [⟨"z0".toList, .value, ["--z0".toList], []⟩,
    ⟨"z1".toList, .value, ["--z1".toList], []⟩,
    ⟨"z2".toList, .value, ["--z2".toList], []⟩,
    ⟨"z3".toList, .value, ["--z3".toList], []⟩,
    ⟨"z4".toList, .value, ["--z4".toList], []⟩,
    ⟨"z5".toList, .value, ["--z5".toList], []⟩,
    ⟨"component".toList, .value, ["--component".toList, "-c".toList], []⟩,
    ⟨"tag".toList, .value, ["--tag".toList, "-t".toList], []⟩,
    ⟨"compgrid".toList, .flag "True".toList, ["--compgrid".toList], []⟩,
    ⟨"varname".toList, .many, ["--varname".toList, "-d".toList], []⟩,
    ⟨"label".toList, .value, ["--label".toList, "-l".toList], []⟩,
    ⟨"c2p".toList, .value, ["--c2p".toList], []⟩,
    ⟨"c2p_vel".toList, .value, ["--c2p-vel".toList], []⟩,
    ⟨"fv".toList, .flag "True".toList, ["--fv".toList], []⟩,
    ⟨"reader".toList, .value, ["--reader".toList, "-r".toList], []⟩,
    ⟨"load".toList, .flag "True".toList, ["--load".toList], ["--no-load".toList]⟩]

/-- commands/magsq.py:9-14: the options of `magsq`. -/
def cmd_magsq : Command where
  name := "magsq".toList
  opts := [⟨"use".toList, .value, ["--use".toList, "-u".toList], []⟩,
    ⟨"tag".toList, .value, ["--tag".toList, "-t".toList], []⟩,
    ⟨"label".toList, .value, ["--label".toList, "-l".toList], []⟩]

/-- commands/mask.py:8-16: the options of `mask`. -/
def cmd_mask : Command where
  name := "mask".toList
  opts := [⟨"use".toList, .value, ["--use".toList, "-u".toList], []⟩,
    ⟨"filename".toList, .value, ["--filename".toList, "-f".toList], []⟩,
    ⟨"lower".toList, .value, ["--lower".toList, "-l".toList], []⟩,
    ⟨"upper".toList, .value, ["--upper".toList, "-u".toList], []⟩]

/-- commands/gk_energy_balance.py:10-62: the options of `gk-energy-balance`. -/
def cmd_gk_energy_balance : Command where
  name := "gk-energy-balance".toList
  opts := [⟨"name".toList, .value, ["--name".toList, "-n".toList], []⟩,
    ⟨"species".toList, .value, ["--species".toList, "-s".toList], []⟩,
    ⟨"path".toList, .value, ["--path".toList, "-p".toList], []⟩,
    ⟨"relative_error".toList, .flag "True".toList, ["--relative_error".toList, "-r".toList], []⟩,
    ⟨"multib".toList, .optional "-1".toList, ["--multib".toList, "-m".toList], []⟩,
    ⟨"field_dot_file".toList, .many, ["--field_dot_file".toList], []⟩,
    ⟨"fdot_file".toList, .many, ["--fdot_file".toList], []⟩,
    ⟨"source_file".toList, .many, ["--source_file".toList], []⟩,
    ⟨"bflux_xlower_file".toList, .many, ["--bflux_xlower_file".toList], []⟩,
    ⟨"bflux_ylower_file".toList, .many, ["--bflux_ylower_file".toList], []⟩,
    ⟨"bflux_zlower_file".toList, .many, ["--bflux_zlower_file".toList], []⟩,
    ⟨"bflux_xupper_file".toList, .many, ["--bflux_xupper_file".toList], []⟩,
    ⟨"bflux_yupper_file".toList, .many, ["--bflux_yupper_file".toList], []⟩,
    ⟨"bflux_zupper_file".toList, .many, ["--bflux_zupper_file".toList], []⟩,
    ⟨"f_file".toList, .many, ["--f_file".toList], []⟩,
    ⟨"field_file".toList, .many, ["--field_file".toList], []⟩,
    ⟨"dt_file".toList, .value, ["--dt_file".toList], []⟩,
    ⟨"logy".toList, .flag "True".toList, ["--logy".toList], []⟩,
    ⟨"absy".toList, .flag "True".toList, ["--absy".toList], []⟩,
    ⟨"xlabel".toList, .value, ["--xlabel".toList], []⟩,
    ⟨"ylabel".toList, .value, ["--ylabel".toList], []⟩,
    ⟨"title".toList, .value, ["--title".toList], []⟩,
    ⟨"indent_left".toList, .value, ["--indent_left".toList], []⟩,
    ⟨"add_width".toList, .value, ["--add_width".toList], []⟩,
    ⟨"saveas".toList, .value, ["--saveas".toList], []⟩]

/-- commands/gk_particle_balance.py:10-58: the options of `gk-particle-balance`. -/
def cmd_gk_particle_balance : Command where
  name := "gk-particle-balance".toList
  opts := [⟨"name".toList, .value, ["--name".toList, "-n".toList], []⟩,
    ⟨"species".toList, .value, ["--species".toList, "-s".toList], []⟩,
    ⟨"path".toList, .value, ["--path".toList, "-p".toList], []⟩,
    ⟨"relative_error".toList, .flag "True".toList, ["--relative_error".toList, "-r".toList], []⟩,
    ⟨"multib".toList, .optional "-1".toList, ["--multib".toList, "-m".toList], []⟩,
    ⟨"fdot_file".toList, .many, ["--fdot_file".toList], []⟩,
    ⟨"source_file".toList, .many, ["--source_file".toList], []⟩,
    ⟨"bflux_xlower_file".toList, .many, ["--bflux_xlower_file".toList], []⟩,
    ⟨"bflux_ylower_file".toList, .many, ["--bflux_ylower_file".toList], []⟩,
    ⟨"bflux_zlower_file".toList, .many, ["--bflux_zlower_file".toList], []⟩,
    ⟨"bflux_xupper_file".toList, .many, ["--bflux_xupper_file".toList], []⟩,
    ⟨"bflux_yupper_file".toList, .many, ["--bflux_yupper_file".toList], []⟩,
    ⟨"bflux_zupper_file".toList, .many, ["--bflux_zupper_file".toList], []⟩,
    ⟨"f_file".toList, .many, ["--f_file".toList], []⟩,
    ⟨"dt_file".toList, .value, ["--dt_file".toList], []⟩,
    ⟨"logy".toList, .flag "True".toList, ["--logy".toList], []⟩,
    ⟨"absy".toList, .flag "True".toList, ["--absy".toList], []⟩,
    ⟨"xlabel".toList, .value, ["--xlabel".toList], []⟩,
    ⟨"ylabel".toList, .value, ["--ylabel".toList], []⟩,
    ⟨"title".toList, .value, ["--title".toList], []⟩,
    ⟨"indent_left".toList, .value, ["--indent_left".toList], []⟩,
    ⟨"add_width".toList, .value, ["--add_width".toList], []⟩,
    ⟨"saveas".toList, .value, ["--saveas".toList], []⟩]

/-- commands/plot.py:9-104: the options of `plot`. -/
def cmd_plot : Command where
  name := "plot".toList
  opts := [⟨"use".toList, .value, ["--use".toList, "-u".toList], []⟩,
    ⟨"figure".toList, .value, ["--figure".toList, "-f".toList], []⟩,
    ⟨"squeeze".toList, .flag "True".toList, ["--squeeze".toList], []⟩,
    ⟨"subplots".toList, .flag "True".toList, ["--subplots".toList, "-b".toList], []⟩,
    ⟨"num_subplot_row".toList, .value, ["--nsubplotrow".toList], []⟩,
    ⟨"num_subplot_col".toList, .value, ["--nsubplotcol".toList], []⟩,
    ⟨"transpose".toList, .flag "True".toList, ["--transpose".toList], []⟩,
    ⟨"contour".toList, .flag "True".toList, ["-c".toList, "--contour".toList], []⟩,
    ⟨"clevels".toList, .value, ["--clevels".toList], []⟩,
    ⟨"cnlevels".toList, .value, ["--cnlevels".toList], []⟩,
    ⟨"cont_label".toList, .flag "True".toList, ["--contlabel".toList], []⟩,
    ⟨"quiver".toList, .flag "True".toList, ["-q".toList, "--quiver".toList], []⟩,
    ⟨"streamline".toList, .flag "True".toList, ["-l".toList, "--streamline".toList], []⟩,
    ⟨"sdensity".toList, .value, ["--sdensity".toList], []⟩,
    ⟨"arrowstyle".toList, .value, ["--arrowstyle".toList], []⟩,
    ⟨"lineouts".toList, .value, ["--lineouts".toList], []⟩,
    ⟨"scatter".toList, .flag "True".toList, ["-s".toList, "--scatter".toList], []⟩,
    ⟨"markersize".toList, .value, ["--markersize".toList], []⟩,
    ⟨"linewidth".toList, .value, ["--linewidth".toList], []⟩,
    ⟨"linestyle".toList, .value, ["--linestyle".toList], []⟩,
    ⟨"style".toList, .value, ["--style".toList], []⟩,
    ⟨"diverging".toList, .flag "True".toList, ["-d".toList, "--diverging".toList], []⟩,
    ⟨"arg".toList, .value, ["--arg".toList], []⟩,
    ⟨"fixaspect".toList, .flag "True".toList, ["--fix-aspect".toList, "-a".toList], []⟩,
    ⟨"aspect".toList, .value, ["--aspect".toList], []⟩,
    ⟨"logx".toList, .flag "True".toList, ["--logx".toList], []⟩,
    ⟨"logy".toList, .flag "True".toList, ["--logy".toList], []⟩,
    ⟨"logz".toList, .flag "True".toList, ["--logz".toList], []⟩,
    ⟨"xshift".toList, .value, ["--xshift".toList], []⟩,
    ⟨"yshift".toList, .value, ["--yshift".toList], []⟩,
    ⟨"zshift".toList, .value, ["--zshift".toList], []⟩,
    ⟨"xscale".toList, .value, ["--xscale".toList], []⟩,
    ⟨"yscale".toList, .value, ["--yscale".toList], []⟩,
    ⟨"zscale".toList, .value, ["--zscale".toList], []⟩,
    ⟨"xmax".toList, .value, ["--xmax".toList], []⟩,
    ⟨"xmin".toList, .value, ["--xmin".toList], []⟩,
    ⟨"ymax".toList, .value, ["--ymax".toList], []⟩,
    ⟨"ymin".toList, .value, ["--ymin".toList], []⟩,
    ⟨"zmax".toList, .value, ["--zmax".toList], []⟩,
    ⟨"zmin".toList, .value, ["--zmin".toList], []⟩,
    ⟨"xlim".toList, .value, ["--xlim".toList], []⟩,
    ⟨"ylim".toList, .value, ["--ylim".toList], []⟩,
    ⟨"zlim".toList, .value, ["--zlim".toList], []⟩,
    ⟨"relax".toList, .flag "True".toList, ["--relax".toList], []⟩,
    ⟨"globalrange".toList, .flag "True".toList, ["--globalrange".toList, "-r".toList], []⟩,
    ⟨"cutoffglobalrange".toList, .value, ["--cutoffglobalrange".toList, "-cogr".toList], []⟩,
    ⟨"legend".toList, .value, ["--legend".toList], []⟩,
    ⟨"no_legend".toList, .flag "True".toList, ["--no-legend".toList], []⟩,
    ⟨"forcelegend".toList, .flag "True".toList, ["--force-legend".toList], []⟩,
    ⟨"color".toList, .value, ["--color".toList], []⟩,
    ⟨"xlabel".toList, .value, ["-x".toList, "--xlabel".toList], []⟩,
    ⟨"ylabel".toList, .value, ["-y".toList, "--ylabel".toList], []⟩,
    ⟨"clabel".toList, .value, ["--clabel".toList], []⟩,
    ⟨"title".toList, .value, ["--title".toList], []⟩,
    ⟨"subplot_titles".toList, .value, ["--subplot-titles".toList], []⟩,
    ⟨"subplot_xlabels".toList, .value, ["--subplot-xlabels".toList], []⟩,
    ⟨"subplot_ylabels".toList, .value, ["--subplot-ylabels".toList], []⟩,
    ⟨"save".toList, .flag "True".toList, ["--save".toList], []⟩,
    ⟨"saveas".toList, .value, ["--saveas".toList], []⟩,
    ⟨"dpi".toList, .value, ["--dpi".toList], []⟩,
    ⟨"edgecolors".toList, .value, ["-e".toList, "--edgecolors".toList], []⟩,
    ⟨"showgrid".toList, .flag "True".toList, ["--showgrid".toList], ["--no-showgrid".toList]⟩,
    ⟨"xkcd".toList, .flag "True".toList, ["--xkcd".toList], []⟩,
    ⟨"hashtag".toList, .flag "True".toList, ["--hashtag".toList], []⟩,
    ⟨"show".toList, .flag "True".toList, ["--show".toList], ["--no-show".toList]⟩,
    ⟨"figsize".toList, .value, ["--figsize".toList], []⟩,
    ⟨"saveframes".toList, .value, ["--saveframes".toList], []⟩,
    ⟨"jet".toList, .flag "True".toList, ["--jet".toList], []⟩,
    ⟨"cmap".toList, .value, ["--cmap".toList], []⟩,
    ⟨"multiblock".toList, .flag "True".toList, ["-m".toList, "--multiblock".toList], []⟩]

/-- commands/pr.py:8-12: the options of `pr`. -/
def cmd_pr : Command where
  name := "pr".toList
  opts := [⟨"use".toList, .value, ["--use".toList, "-u".toList], []⟩,
    ⟨"grid".toList, .flag "True".toList, ["--grid".toList, "-g".toList], []⟩]

/-- commands/relchange.py:8-17: the options of `relchange`. -/
def cmd_relchange : Command where
  name := "relchange".toList
  opts := [⟨"use".toList, .value, ["--use".toList, "-u".toList], []⟩,
    ⟨"index".toList, .value, ["--index".toList, "-i".toList], []⟩,
    ⟨"comp".toList, .value, ["--comp".toList, "-c".toList], []⟩,
    ⟨"tag".toList, .value, ["--tag".toList, "-t".toList], []⟩,
    ⟨"label".toList, .value, ["--label".toList, "-l".toList], []⟩]

/-- commands/select.py:10-27: the options of `select`. -/
def cmd_select : Command where
  name := "select".toList
  opts := [⟨"z0".toList, .value, ["--z0".toList], []⟩,
    ⟨"z1".toList, .value, ["--z1".toList], []⟩,
    ⟨"z2".toList, .value, ["--z2".toList], []⟩,
    ⟨"z3".toList, .value, ["--z3".toList], []⟩,
    ⟨"z4".toList, .value, ["--z4".toList], []⟩,
    ⟨"z5".toList, .value, ["--z5".toList], []⟩,
    ⟨"comp".toList, .value, ["--comp".toList, "-c".toList], []⟩,
    ⟨"use".toList, .value, ["--use".toList, "-u".toList], []⟩,
    ⟨"tag".toList, .value, ["--tag".toList, "-t".toList], []⟩,
    ⟨"label".toList, .value, ["--label".toList, "-l".toList], []⟩,
    ⟨"multiblock".toList, .flag "True".toList, ["--multiblock".toList, "-m".toList], []⟩,
    ⟨"multiframe".toList, .flag "True".toList, ["--multiframe".toList, "-f".toList], []⟩]

/-- commands/style.py:6-11: the options of `style`. -/
def cmd_style : Command where
  name := "style".toList
  opts := [⟨"file".toList, .value, ["--file".toList, "-f".toList], []⟩,
    ⟨"set".toList, .many, ["--set".toList, "-s".toList], []⟩,
    ⟨"print".toList, .flag "True".toList, ["--print".toList, "-p".toList], []⟩]

/-- commands/tenmoment.py:9-20: the options of `tenmoment`. -/
def cmd_tenmoment : Command where
  name := "tenmoment".toList
  opts := [⟨"use".toList, .value, ["--use".toList, "-u".toList], []⟩,
    ⟨"variable_name".toList, .value, ["-v".toList, "--variable_name".toList], []⟩,
    ⟨"gas_gamma".toList, .value, ["-g".toList, "--gas_gamma".toList], []⟩,
    ⟨"tag".toList, .value, ["--tag".toList, "-t".toList], []⟩,
    ⟨"label".toList, .value, ["--label".toList, "-l".toList], []⟩]

/-- commands/trajectory.py:72-90: the options of `trajectory`. -/
def cmd_trajectory : Command where
  name := "trajectory".toList
  opts := [⟨"fixaspect".toList, .flag "True".toList, ["--fix-aspect".toList], []⟩,
    ⟨"show".toList, .flag "True".toList, ["--show".toList], ["--no-show".toList]⟩,
    ⟨"interval".toList, .value, ["-i".toList, "--interval".toList], []⟩,
    ⟨"save".toList, .flag "True".toList, ["--save".toList], []⟩,
    ⟨"velocity".toList, .flag "True".toList, ["--velocity".toList], ["--no-velocity".toList]⟩,
    ⟨"saveas".toList, .value, ["--saveas".toList], []⟩,
    ⟨"elevation".toList, .value, ["-e".toList, "--elevation".toList], []⟩,
    ⟨"azimuth".toList, .value, ["-a".toList, "--azimuth".toList], []⟩,
    ⟨"numframes".toList, .value, ["-n".toList, "--numframes".toList], []⟩,
    ⟨"xmin".toList, .value, ["--xmin".toList], []⟩,
    ⟨"xmax".toList, .value, ["--xmax".toList], []⟩,
    ⟨"ymin".toList, .value, ["--ymin".toList], []⟩,
    ⟨"ymax".toList, .value, ["--ymax".toList], []⟩,
    ⟨"zmin".toList, .value, ["--zmin".toList], []⟩,
    ⟨"zmax".toList, .value, ["--zmax".toList], []⟩,
    ⟨"use".toList, .value, ["--use".toList, "-u".toList], []⟩]

/-- commands/val2coord.py:42-52: the options of `val2coord`. -/
def cmd_val2coord : Command where
  name := "val2coord".toList
  opts := [⟨"use".toList, .value, ["--use".toList, "-u".toList], []⟩,
    ⟨"tag".toList, .value, ["--tag".toList, "-t".toList], []⟩,
    ⟨"label".toList, .value, ["--label".toList, "-l".toList], []⟩,
    ⟨"x".toList, .value, ["-x".toList], []⟩,
    ⟨"y".toList, .value, ["-y".toList], []⟩,
    ⟨"periodic".toList, .flag "True".toList, ["--periodic".toList, "-p".toList], []⟩]

/-- commands/velocity.py:7-14: the options of `velocity`. -/
def cmd_velocity : Command where
  name := "velocity".toList
  opts := [⟨"density".toList, .value, ["--density".toList, "-d".toList], []⟩,
    ⟨"momentum".toList, .value, ["--momentum".toList, "-m".toList], []⟩,
    ⟨"tag".toList, .value, ["--tag".toList, "-t".toList], []⟩,
    ⟨"label".toList, .value, ["--label".toList, "-l".toList], []⟩]

/-- commands/write.py:7-14: the options of `write`. -/
def cmd_write : Command where
  name := "write".toList
  opts := [⟨"use".toList, .value, ["--use".toList, "-u".toList], []⟩,
    ⟨"filename".toList, .value, ["-f".toList, "--filename".toList], []⟩,
    ⟨"mode".toList, .value, ["-m".toList, "--mode".toList], []⟩,
    ⟨"single".toList, .flag "True".toList, ["-s".toList, "--single".toList], []⟩]

/-- commands/transform_frame.py:9-18: the options of `transformframe`. -/
def cmd_transformframe : Command where
  name := "transformframe".toList
  opts := [⟨"distribution".toList, .value, ["--distribution".toList, "-f".toList], []⟩,
    ⟨"bulk".toList, .value, ["--bulk".toList, "-u".toList], []⟩,
    ⟨"cdim".toList, .value, ["--cdim".toList, "-c".toList], []⟩,
    ⟨"tag".toList, .value, ["--tag".toList, "-t".toList], []⟩,
    ⟨"label".toList, .value, ["--label".toList, "-l".toList], []⟩]

/-- commands/gkyl_pkpm.py:9-17: the options of `pkpm`. -/
def cmd_pkpm : Command where
  name := "pkpm".toList
  opts := [⟨"name".toList, .value, ["--name".toList, "-n".toList], []⟩,
    ⟨"species".toList, .value, ["--species".toList, "-s".toList], []⟩,
    ⟨"idx".toList, .value, ["--idx".toList, "-i".toList], []⟩,
    ⟨"poly_order".toList, .value, ["--poly_order".toList, "-p".toList], []⟩,
    ⟨"tag".toList, .value, ["--tag".toList, "-t".toList], []⟩,
    ⟨"label".toList, .value, ["--label".toList, "-l".toList], []⟩]

/-- pgkyl.py:66-89: the options of `pgkyl`. -/
def cmd_cli : Command where
  name := "pgkyl".toList
  opts := [⟨"verbose".toList, .flag "True".toList, ["--verbose".toList, "-v".toList], []⟩,
    ⟨"batch_mode".toList, .flag "True".toList, ["--batch-mode".toList], []⟩,
    ⟨"saveframes_prefix".toList, .value, ["--saveframes-prefix".toList], []⟩,
    ⟨"version".toList, .flag "True".toList, ["--version".toList], []⟩,
    ⟨"z0".toList, .value, ["--z0".toList], []⟩,
    ⟨"z1".toList, .value, ["--z1".toList], []⟩,
    ⟨"z2".toList, .value, ["--z2".toList], []⟩,
    ⟨"z3".toList, .value, ["--z3".toList], []⟩,
    ⟨"z4".toList, .value, ["--z4".toList], []⟩,
    ⟨"z5".toList, .value, ["--z5".toList], []⟩,
    ⟨"component".toList, .value, ["--component".toList, "-c".toList], []⟩,
    ⟨"compgrid".toList, .flag "True".toList, ["--compgrid".toList], []⟩,
    ⟨"varname".toList, .many, ["--varname".toList, "-d".toList], []⟩,
    ⟨"c2p".toList, .value, ["--c2p".toList], []⟩,
    ⟨"c2p_vel".toList, .value, ["--c2p-vel".toList], []⟩,
    ⟨"style".toList, .value, ["--style".toList], []⟩]

/-- pgkyl.py:137-176: the commands, in the order in which they are registered. -/
def commands : List Command :=
  [cmd_activate, cmd_agyro, cmd_mom_agyro, cmd_animate, cmd_collect,
    cmd_current, cmd_deactivate, cmd_differentiate, cmd_energetics, cmd_euler,
    cmd_mhd, cmd_ev, cmd_extractinput, cmd_fft, cmd_gk_nodes,
    cmd_gk_distf, cmd_grid, cmd_growth, cmd_info, cmd_integrate,
    cmd_interpolate, cmd_laguerrecompose, cmd_listoutputs, cmd_load, cmd_magsq,
    cmd_mask, cmd_gk_energy_balance, cmd_gk_particle_balance, cmd_plot, cmd_pr,
    cmd_relchange, cmd_select, cmd_style, cmd_tenmoment, cmd_trajectory,
    cmd_val2coord, cmd_velocity, cmd_write, cmd_transformframe, cmd_pkpm]

end Pgkyl.Options
