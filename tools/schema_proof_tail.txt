
end Boxcars
