import Verif.Model.Launch

/-!
# The shipped configurations

The two files `launch/exploration.launch` loads.  Simplification: the entries `frequency`, which
only sets the rate of the loop, and `base_frame_id`, which only names a frame, are left out.
-/

namespace Ergodic
variable {F : Type} [Flt F]

/-- `means` (explore_omni.yaml:77, explore_cart.yaml:69). -/
def yamlMeans : Xml F :=
  .arr [.arr [.dbl (lit 25 1), .dbl (lit 25 1)], .arr [.dbl (lit 85 1), .dbl (lit 25 1)]]

/-- `sigmas` (explore_omni.yaml:78, explore_cart.yaml:70). -/
def yamlSigmas : Xml F :=
  .arr [.arr [.dbl (lit 15 1), .dbl (lit 15 1)], .arr [.dbl (lit 15 1), .dbl (lit 15 1)]]

/-- `config/explore_omni.yaml` -/
def omniYaml : Launch F where
  base :=
    { map_frame_id := "map"
      val_dt := lit 1 1
      val_horizon := lit 5 1
      max_vel_x := lit 10 1
      max_vel_y := lit 10 1
      max_rot_vel := lit 20 1
      min_vel_x := lit (-10) 1
      min_vel_y := lit (-10) 1
      min_rot_vel := lit (-20) 1
      acc_lim_x := lit 25 1
      acc_lim_y := lit 25 1
      acc_lim_th := lit 10 1
      boundary_radius := lit 7 1
      search_radius := lit 10 1
      obstacle_threshold := lit 2 1
      occupied_threshold := lit 8 1
      ec_dt := lit 1 1
      ec_horizon := lit 50 1
      target_resolution := lit 1 1
      expl_weight := lit 10 1
      num_basis := 0
      buffer_size := 0
      batch_size := 0
      control_weights := [lit 10 1, lit 10 1, lit 5 1]
      dwa_dt := lit 1 1
      dwa_horizon := lit 20 1
      acc_dt := lit 2 1
      vx_samples := 0
      vy_samples := 0
      vth_samples := 0
      targets := [] }
  num_basis := 10
  buffer_size := lit 1000000 0
  batch_size := 100
  vx_samples := 3
  vy_samples := 8
  vth_samples := 5
  means := yamlMeans
  sigmas := yamlSigmas

/-- `config/explore_cart.yaml`; there are no entries for the lateral direction and the cart does not
read any. -/
def cartYaml : Launch F where
  base :=
    { map_frame_id := "map"
      val_dt := lit 1 1
      val_horizon := lit 5 1
      max_vel_x := lit 10 1
      max_vel_y := lit 0 0
      max_rot_vel := lit 20 1
      min_vel_x := lit (-10) 1
      min_vel_y := lit 0 0
      min_rot_vel := lit (-20) 1
      acc_lim_x := lit 25 1
      acc_lim_y := lit 0 0
      acc_lim_th := lit 10 1
      boundary_radius := lit 7 1
      search_radius := lit 10 1
      obstacle_threshold := lit 2 1
      occupied_threshold := lit 8 1
      ec_dt := lit 1 1
      ec_horizon := lit 50 1
      target_resolution := lit 1 1
      expl_weight := lit 10 1
      num_basis := 0
      buffer_size := 0
      batch_size := 0
      control_weights := [lit 10 1, lit 5 1]
      dwa_dt := lit 1 1
      dwa_horizon := lit 20 1
      acc_dt := lit 2 1
      vx_samples := 0
      vy_samples := 0
      vth_samples := 0
      targets := [] }
  num_basis := 10
  buffer_size := lit 1000000 0
  batch_size := 100
  vx_samples := 3
  vy_samples := 0
  vth_samples := 5
  means := yamlMeans
  sigmas := yamlSigmas

end Ergodic
